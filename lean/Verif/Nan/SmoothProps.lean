import Verif.Nan.SmoothSpec
import Verif.Nan.Props
import Verif.Nan.FixProps

/-!
# C148: a place that is not a number in the alpha-beta smoother
-/

namespace Verif.Nan.Ab

open Verif.Smooth (AbParams MIN_ALPHA MAX_ALPHA TIME_THRESHOLD_SEC MAX_OBJECT_VELOCITY_MPS)

variable {α : Type} {A : Arithmetic α}

/-- Nothing is smoothed any more: a stored coordinate or speed is not a number. -/
def Off (A : Arithmetic α) (s : State α) : Prop :=
  s.wasCalled = true ∧ ((A.nan s.speedX ∨ A.nan s.position.x) ∨ A.nan s.speedY ∨ A.nan s.position.y)

/-- One coordinate: if the place before, the speed or the new place is not a number, neither the new coordinate nor the new speed is. -/
theorem axis_bad (hA : Propagates A) (x v t a b p : α) (h : A.nan v ∨ A.nan x ∨ A.nan p) :
    A.nan (A.add (A.add x (A.mul v t)) (A.mul a (A.sub p (A.add x (A.mul v t))))) ∧
    A.nan (A.add v (A.mul (A.div b t) (A.sub p (A.add x (A.mul v t))))) := by
  have hd : A.nan (A.sub p (A.add x (A.mul v t))) := by
    rcases h with h | h | h
    · exact hA.sub _ _ (Or.inr (hA.add _ _ (Or.inr (hA.mul _ _ (Or.inl h)))))
    · exact hA.sub _ _ (Or.inr (hA.add _ _ (Or.inl h)))
    · exact hA.sub _ _ (Or.inl h)
  exact ⟨hA.add _ _ (Or.inr (hA.mul _ _ (Or.inr hd))), hA.add _ _ (Or.inr (hA.mul _ _ (Or.inr hd)))⟩

theorem step_off (hA : Propagates A) {finite : α → Prop} (hf : ∀ a, A.nan a → ¬ finite a) (allowed : α → α → Prop) (P : AbParams)
    (hb : P.useBarriers = false) (s : State α) (p : Place α) (ht : s.position.ts < p.ts)
    (h : (A.nan p.x ∨ A.nan p.y) ∨ Off A s ∧ Soon A s.position p) :
    coords (smooth A finite allowed P s p).1 = coords p ∧ Off A (smooth A finite allowed P s p).2 ∧
      (smooth A finite allowed P s p).2.position.ts = p.ts := by
  have hx : (A.nan s.speedX ∨ A.nan s.position.x ∨ A.nan p.x) ∨ (A.nan s.speedY ∨ A.nan s.position.y ∨ A.nan p.y) := by
    rcases h with (h | h) | ⟨⟨-, (h | h) | h | h⟩, -⟩
    · exact Or.inl (Or.inr (Or.inr h))
    · exact Or.inr (Or.inr (Or.inr h))
    · exact Or.inl (Or.inl h)
    · exact Or.inl (Or.inr (Or.inl h))
    · exact Or.inr (Or.inl h)
    · exact Or.inr (Or.inr (Or.inl h))
  unfold smooth
  rw [if_pos ht]
  dsimp only
  generalize ht' : A.div (A.lit ((p.ts - s.position.ts : Int) : ℝ)) (A.lit 1000) = t
  generalize gain A P s p = a
  generalize A.div (A.mul a a) (A.sub (A.lit 2) a) = b
  have kx := axis_bad hA s.position.x s.speedX t a b p.x
  have ky := axis_bad hA s.position.y s.speedY t a b p.y
  generalize A.add (A.add s.position.x (A.mul s.speedX t)) (A.mul a (A.sub p.x (A.add s.position.x (A.mul s.speedX t)))) = xs at kx ⊢
  generalize A.add (A.add s.position.y (A.mul s.speedY t)) (A.mul a (A.sub p.y (A.add s.position.y (A.mul s.speedY t)))) = ys at ky ⊢
  generalize A.add s.speedX (A.mul (A.div b t) (A.sub p.x (A.add s.position.x (A.mul s.speedX t)))) = vx at kx ⊢
  generalize A.add s.speedY (A.mul (A.div b t) (A.sub p.y (A.add s.position.y (A.mul s.speedY t)))) = vy at ky ⊢
  have hnf : ¬ (finite xs ∧ finite ys) := by
    rintro ⟨f1, f2⟩
    rcases hx with hx | hx
    · exact hf _ (kx hx).1 f1
    · exact hf _ (ky hx).1 f2
  have hv : A.nan (A.sqrt (A.add (A.mul vx vx) (A.mul vy vy))) := by
    rcases hx with hx | hx
    · exact hA.sqrt _ (hA.add _ _ (Or.inl (hA.mul _ _ (Or.inl (kx hx).2))))
    · exact hA.sqrt _ (hA.add _ _ (Or.inr (hA.mul _ _ (Or.inl (ky hx).2))))
  by_cases hc : s.wasCalled = false ∨ A.lt (A.lit TIME_THRESHOLD_SEC) t ∨
      (P.useSpeedConstraint = true ∧ A.lt (A.lit MAX_OBJECT_VELOCITY_MPS) (A.sqrt (A.add (A.mul vx vx) (A.mul vy vy)))) ∨
      (P.useBarriers = true ∧ ¬ allowed xs ys)
  · rw [if_pos hc]
    refine ⟨rfl, ⟨rfl, ?_⟩, rfl⟩
    rcases h with h | ⟨⟨h1, -⟩, -, h3⟩
    · rcases h with h | h
      · exact Or.inl (Or.inr h)
      · exact Or.inr (Or.inr h)
    · exfalso
      rcases hc with hc | hc | hc | hc
      · rw [h1] at hc
        exact absurd hc (by decide)
      · rw [ht'] at h3
        exact h3 hc
      · exact hA.lt _ _ (Or.inr hv) hc.2
      · rw [hb] at hc
        exact absurd hc.1 (by decide)
  · rw [if_neg hc]
    simp only [if_neg hnf]
    refine ⟨rfl, ⟨?_, ?_⟩, trivial⟩
    · push Not at hc
      exact Bool.eq_true_of_not_eq_false hc.1
    · rcases hx with hx | hx
      · exact Or.inl (Or.inl (kx hx).2)
      · exact Or.inr (Or.inl (ky hx).2)

theorem run_off (hA : Propagates A) {finite : α → Prop} (hf : ∀ a, A.nan a → ¬ finite a) (allowed : α → α → Prop) (P : AbParams)
    (hb : P.useBarriers = false) (ps : List (Place α)) : ∀ (s : State α), Off A s →
      (∀ q, ps.head? = some q → Soon A s.position q) → ps.IsChain (Soon A) →
      (run A finite allowed P s ps).1.map coords = ps.map coords := by
  induction ps with
  | nil => intro s _ _ _; rfl
  | cons p ps ih =>
    intro s hs h1 h2
    have hsoon := h1 p rfl
    obtain ⟨k1, k2, k3⟩ := step_off hA hf allowed P hb s p hsoon.1 (Or.inr ⟨hs, hsoon⟩)
    unfold run
    dsimp only
    rw [List.map_cons, List.map_cons, k1]
    congr 1
    apply ih _ k2
    · intro q hq
      cases ps with
      | nil => simp at hq
      | cons q' ps =>
        simp only [List.head?_cons, Option.some.injEq] at hq
        subst hq
        have := (List.isChain_cons_cons.mp h2).1
        unfold Soon at this ⊢
        rw [k3]
        exact this
    · exact h2.tail

/-- **C148.** Without barriers: whatever the smoother was given before, after a place that is not a number it tells every place as it is
given, as long as the places come with growing times and never more than ten seconds apart. -/
theorem C148_off (hA : Propagates A) (finite : α → Prop) (hf : ∀ a, A.nan a → ¬ finite a) (allowed : α → α → Prop) (P : AbParams)
    (hb : P.useBarriers = false) (before : List (Place α)) (bad : Place α) (hbad : A.nan bad.x ∨ A.nan bad.y)
    (hnew : (run A finite allowed P (init A) before).2.position.ts < bad.ts) (ps : List (Place α))
    (hps : (bad :: ps).IsChain (Soon A)) :
    (run A finite allowed P (run A finite allowed P (init A) before).2 (bad :: ps)).1.map coords = (bad :: ps).map coords := by
  obtain ⟨k1, k2, k3⟩ := step_off hA hf allowed P hb _ bad hnew (Or.inl hbad)
  unfold run
  dsimp only
  rw [List.map_cons, List.map_cons, k1]
  congr 1
  apply run_off hA hf allowed P hb ps _ k2
  · intro q hq
    cases ps with
    | nil => simp at hq
    | cons q' ps =>
      simp only [List.head?_cons, Option.some.injEq] at hq
      subst hq
      have := (List.isChain_cons_cons.mp hps).1
      unfold Soon at this ⊢
      rw [k3]
      exact this
  · exact hps.tail

/-- **C148, the answer.** A coordinate that is not a number is not a number either after it has been fitted into the box and rounded. -/
theorem C148_answer (hA : Propagates A) (floor : α → α) (hfl : ∀ a, A.nan a → A.nan (floor a)) (lo hi x : α) (hx : A.nan x) :
    A.nan (fitCoordinate A floor lo hi x) := by
  unfold fitCoordinate
  have h1 : maxOf A x lo = x := if_neg (hA.lt _ _ (Or.inl hx))
  have h2 : minOf A x hi = x := if_neg (hA.lt _ _ (Or.inr hx))
  rw [h1, h2]
  exact hA.div _ _ (Or.inl (hfl _ (hA.mul _ _ (Or.inl hx))))

/-- **C148, the way back.** A place more than ten seconds newer than the last one makes the smoother forget: it goes on as a new one does
that is given this place first. So does a change of the floor, with the first place on the new floor. -/
theorem C148_back (finite : α → Prop) (allowed : α → α → Prop) (P : AbParams) (s : State α) (p : Place α) (hp : 0 < p.ts)
    (hlong : s.position.ts < p.ts ∧ A.lt (A.lit 10) (A.div (A.lit ((p.ts - s.position.ts : Int) : ℝ)) (A.lit 1000))) :
    smooth A finite allowed P s p = smooth A finite allowed P (init A) p ∧ (smooth A finite allowed P s p).1 = p ∧
      reset A ⟨true, s.speedX, s.speedY, s.position⟩ p = (smooth A finite allowed P (init A) p).2 := by
  have h1 : smooth A finite allowed P s p = (p, ⟨true, A.lit 0, A.lit 0, p⟩) := by
    unfold smooth
    rw [if_pos hlong.1]
    dsimp only
    have hl : A.lt (A.lit TIME_THRESHOLD_SEC) (A.div (A.lit ((p.ts - s.position.ts : Int) : ℝ)) (A.lit 1000)) := hlong.2
    rw [if_pos (Or.inr (Or.inl hl))]
  have h2 : smooth A finite allowed P (init A) p = (p, ⟨true, A.lit 0, A.lit 0, p⟩) := by
    unfold smooth
    rw [if_pos (show p.ts > (init A).position.ts from hp)]
    dsimp only
    rw [if_pos (Or.inl (show (init A).wasCalled = false from rfl))]
  rw [h1, h2]
  exact ⟨rfl, rfl, rfl⟩

/-- In exact numbers: no more than ten seconds. -/
theorem C148_soon (p q : Place (Option ℝ)) : Soon exact p q ↔ p.ts < q.ts ∧ q.ts - p.ts ≤ 10000 := by
  unfold Soon
  refine and_congr_right fun _ => ?_
  have e : exact.div (exact.lit ((q.ts - p.ts : Int) : ℝ)) (exact.lit 1000) = some (((q.ts - p.ts : Int) : ℝ) / 1000) :=
    e_div _ (by norm_num)
  rw [e]
  show ¬ ((10 : ℝ) < ((q.ts - p.ts : Int) : ℝ) / 1000) ↔ _
  rw [not_lt, div_le_iff₀ (by norm_num)]
  norm_num
  constructor
  · intro h
    exact_mod_cast h
  · intro h
    exact_mod_cast h

/-- A state of numbers. -/
def ofState (s : Smooth.AbState) : State (Option ℝ) := ⟨s.wasCalled, some s.speedX, some s.speedY, ofPlace s.position⟩

/-- The places a smoother of the other claims tells. -/
noncomputable def numbers (allowed : ℝ → ℝ → Prop) (P : AbParams) : Smooth.AbState → List Position → List Position
  | _, [] => []
  | s, p :: ps => (Smooth.abSmooth P allowed s p).1 :: numbers allowed P (Smooth.abSmooth P allowed s p).2 ps

theorem gain_of (P : AbParams) (s : Smooth.AbState) (p : Position) (h1 : 0 ≤ s.position.deviationM) (h2 : 0 ≤ p.deviationM) :
    gain exact P (ofState s) (ofPlace p) = some (Smooth.abGain P s p) := by
  unfold gain Smooth.abGain
  split_ifs
  · have hne : p.deviationM + s.position.deviationM + 1 / 2 ≠ 0 := by positivity
    have e : exact.div (ofState s).position.deviation
        (exact.add (exact.add (ofPlace p).deviation (ofState s).position.deviation) (exact.lit (1 / 2))) =
        some (s.position.deviationM / (p.deviationM + s.position.deviationM + 1 / 2)) := e_div _ hne
    rw [e, divide_eq hne]
    generalize s.position.deviationM / (p.deviationM + s.position.deviationM + 1 / 2) = r
    have h3 : maxOf exact (exact.lit MIN_ALPHA) (some r) = some (max MIN_ALPHA r) := by
      unfold maxOf
      by_cases h : MIN_ALPHA < r
      · rw [if_pos (show exact.lt (exact.lit MIN_ALPHA) (some r) from h), max_eq_right h.le]
      · rw [if_neg (show ¬ exact.lt (exact.lit MIN_ALPHA) (some r) from h), max_eq_left (not_lt.mp h)]
        rfl
    rw [h3]
    unfold minOf
    by_cases h : MAX_ALPHA < max MIN_ALPHA r
    · rw [if_pos (show exact.lt (exact.lit MAX_ALPHA) (some (max MIN_ALPHA r)) from h), min_eq_right h.le]
      rfl
    · rw [if_neg (show ¬ exact.lt (exact.lit MAX_ALPHA) (some (max MIN_ALPHA r)) from h), min_eq_left (not_lt.mp h)]
  · rfl

theorem gain_range (cs : CommonSettings) (s : Smooth.AbState) (p : Position) :
    0 ≤ Smooth.abGain (Smooth.abParams cs) s p ∧ Smooth.abGain (Smooth.abParams cs) s p ≤ 1 := by
  unfold Smooth.abGain
  split_ifs
  · constructor
    · refine le_min (le_trans ?_ (le_max_left _ _)) ?_ <;> norm_num [MIN_ALPHA, MAX_ALPHA]
    · refine le_trans (min_le_right _ _) ?_
      norm_num [MAX_ALPHA]
  · have h1 : 0 ≤ min 1 (max 0 cs.smoothing) := le_min zero_le_one (le_max_left _ _)
    have h2 : min 1 (max 0 cs.smoothing) ≤ 1 := min_le_left _ _
    show 0 ≤ 1 / 10 * min 1 (max 0 cs.smoothing) + 9 / 10 * (1 - min 1 (max 0 cs.smoothing)) ∧
      1 / 10 * min 1 (max 0 cs.smoothing) + 9 / 10 * (1 - min 1 (max 0 cs.smoothing)) ≤ 1
    constructor <;> nlinarith

theorem smooth_of (allowed : Option ℝ → Option ℝ → Prop) (cs : CommonSettings) (s : Smooth.AbState) (p : Position)
    (h1 : 0 ≤ s.position.deviationM) (h2 : 0 ≤ p.deviationM) :
    smooth exact (fun a => a ≠ none) allowed (Smooth.abParams cs) (ofState s) (ofPlace p) =
      (ofPlace (Smooth.abSmooth (Smooth.abParams cs) (fun x y => allowed (some x) (some y)) s p).1,
        ofState (Smooth.abSmooth (Smooth.abParams cs) (fun x y => allowed (some x) (some y)) s p).2) ∧
      0 ≤ (Smooth.abSmooth (Smooth.abParams cs) (fun x y => allowed (some x) (some y)) s p).2.position.deviationM := by
  obtain ⟨g1, g2⟩ := gain_range cs s p
  have hg := gain_of (Smooth.abParams cs) s p h1 h2
  unfold smooth Smooth.abSmooth
  rw [show (ofPlace p).ts = p.ts from rfl, show (ofState s).position.ts = s.position.ts from rfl]
  by_cases ht : p.ts > s.position.ts
  · rw [if_pos ht, if_pos ht]
    rw [hg]
    generalize Smooth.abGain (Smooth.abParams cs) s p = a at g1 g2
    have htp : (0 : ℝ) < ((p.ts - s.position.ts : Int) : ℝ) / 1000 := by
      have : (0 : ℝ) < ((p.ts - s.position.ts : Int) : ℝ) := by exact_mod_cast sub_pos.mpr ht
      positivity
    have et : exact.div (exact.lit ((p.ts - s.position.ts : Int) : ℝ)) (exact.lit 1000) =
        some (((p.ts - s.position.ts : Int) : ℝ) / 1000) := e_div _ (by norm_num)
    rw [et]
    generalize ((p.ts - s.position.ts : Int) : ℝ) / 1000 = t at htp
    have h2a : (2 : ℝ) - a ≠ 0 := by linarith
    have eb : exact.div (exact.mul (some a) (some a)) (exact.sub (exact.lit 2) (some a)) = some (a * a / (2 - a)) := e_div _ h2a
    dsimp only
    rw [eb, divide_eq h2a]
    generalize a * a / (2 - a) = b
    have ebt : exact.div (some b) (some t) = some (b / t) := e_div _ htp.ne'
    rw [ebt, divide_eq htp.ne']
    generalize b / t = c
    have ex : exact.add (exact.add (ofState s).position.x (exact.mul (ofState s).speedX (some t)))
        (exact.mul (some a) (exact.sub (ofPlace p).x (exact.add (ofState s).position.x (exact.mul (ofState s).speedX (some t))))) =
        some (s.position.x + s.speedX * t + a * (p.x - (s.position.x + s.speedX * t))) := rfl
    have ey : exact.add (exact.add (ofState s).position.y (exact.mul (ofState s).speedY (some t)))
        (exact.mul (some a) (exact.sub (ofPlace p).y (exact.add (ofState s).position.y (exact.mul (ofState s).speedY (some t))))) =
        some (s.position.y + s.speedY * t + a * (p.y - (s.position.y + s.speedY * t))) := rfl
    have evx : exact.add (ofState s).speedX (exact.mul (some c) (exact.sub (ofPlace p).x
        (exact.add (ofState s).position.x (exact.mul (ofState s).speedX (some t))))) =
        some (s.speedX + c * (p.x - (s.position.x + s.speedX * t))) := rfl
    have evy : exact.add (ofState s).speedY (exact.mul (some c) (exact.sub (ofPlace p).y
        (exact.add (ofState s).position.y (exact.mul (ofState s).speedY (some t))))) =
        some (s.speedY + c * (p.y - (s.position.y + s.speedY * t))) := rfl
    rw [ex, ey, evx, evy]
    generalize s.position.x + s.speedX * t + a * (p.x - (s.position.x + s.speedX * t)) = xs
    generalize s.position.y + s.speedY * t + a * (p.y - (s.position.y + s.speedY * t)) = ys
    generalize s.speedX + c * (p.x - (s.position.x + s.speedX * t)) = vx
    generalize s.speedY + c * (p.y - (s.position.y + s.speedY * t)) = vy
    have ev : exact.sqrt (exact.add (exact.mul (some vx) (some vx)) (exact.mul (some vy) (some vy))) =
        some (Real.sqrt (vx * vx + vy * vy)) := by
      have : ¬ (vx * vx + vy * vy < 0) := by nlinarith [mul_self_nonneg vx, mul_self_nonneg vy]
      exact if_neg this
    rw [ev]
    have hs := Real.sqrt_nonneg (vx * vx + vy * vy)
    generalize Real.sqrt (vx * vx + vy * vy) = v at hs
    by_cases hc : s.wasCalled = false ∨ t > TIME_THRESHOLD_SEC ∨
        ((Smooth.abParams cs).useSpeedConstraint = true ∧ v > MAX_OBJECT_VELOCITY_MPS) ∨
        ((Smooth.abParams cs).useBarriers = true ∧ ¬ allowed (some xs) (some ys))
    · have hc' : (ofState s).wasCalled = false ∨ exact.lt (exact.lit TIME_THRESHOLD_SEC) (some t) ∨
          ((Smooth.abParams cs).useSpeedConstraint = true ∧ exact.lt (exact.lit MAX_OBJECT_VELOCITY_MPS) (some v)) ∨
          ((Smooth.abParams cs).useBarriers = true ∧ ¬ allowed (some xs) (some ys)) := hc
      rw [if_pos hc, if_pos hc']
      exact ⟨rfl, h2⟩
    · have hc' : ¬ ((ofState s).wasCalled = false ∨ exact.lt (exact.lit TIME_THRESHOLD_SEC) (some t) ∨
          ((Smooth.abParams cs).useSpeedConstraint = true ∧ exact.lt (exact.lit MAX_OBJECT_VELOCITY_MPS) (some v)) ∨
          ((Smooth.abParams cs).useBarriers = true ∧ ¬ allowed (some xs) (some ys))) := hc
      rw [if_neg hc, if_neg hc']
      have hfin : (some xs : Option ℝ) ≠ none ∧ (some ys : Option ℝ) ≠ none := ⟨by simp, by simp⟩
      simp only [if_pos hfin]
      by_cases hu : (Smooth.abParams cs).useAccuracyForSmoothing = true
      · simp only [hu, if_true]
        refine ⟨rfl, ?_⟩
        have : 0 ≤ t * v := mul_nonneg htp.le hs
        have h1a : 0 ≤ 1 - a := by linarith
        have := mul_nonneg h1a (add_nonneg h2 this)
        have := mul_nonneg g1 h2
        linarith
      · simp only [hu]
        exact ⟨rfl, h2⟩
  · rw [if_neg ht, if_neg ht]
    exact ⟨rfl, h1⟩

/-- **C148, numbers.** Where all places are numbers, with deviations that are not negative, the smoother tells what the one of the other
claims tells. -/
theorem C148_numbers (allowed : Option ℝ → Option ℝ → Prop) (cs : CommonSettings) (ps : List Position) (hdev : ∀ p ∈ ps, 0 ≤ p.deviationM) :
    (run exact (fun a => a ≠ none) allowed (Smooth.abParams cs) (init exact) (ps.map ofPlace)).1 =
      (numbers (fun x y => allowed (some x) (some y)) (Smooth.abParams cs) Smooth.abInit ps).map ofPlace := by
  have key : ∀ s : Smooth.AbState, 0 ≤ s.position.deviationM →
      (run exact (fun a => a ≠ none) allowed (Smooth.abParams cs) (ofState s) (ps.map ofPlace)).1 =
        (numbers (fun x y => allowed (some x) (some y)) (Smooth.abParams cs) s ps).map ofPlace := by
    induction ps with
    | nil => intro s _; rfl
    | cons p ps ih =>
      intro s hs
      obtain ⟨k1, k2⟩ := smooth_of allowed cs s p hs (hdev p (by simp))
      rw [List.map_cons]
      unfold run numbers
      dsimp only
      rw [k1, List.map_cons]
      congr 1
      exact ih (fun q hq => hdev q (by simp [hq])) _ k2
  exact key Smooth.abInit (le_refl _)

/-- A place on a floor. -/
def at_ (x : Option ℝ) (ts : Int) : Place (Option ℝ) := ⟨x, some 0, "A", some 1, ts, false⟩

/-- The smoother used in the example: gain one half, no barriers. -/
noncomputable def exP : AbParams := ⟨false, true, false, 1 / 2⟩

theorem ex_first (p : Place (Option ℝ)) (hp : 0 < p.ts) :
    smooth exact (fun a => a ≠ none) (fun _ _ => True) exP (init exact) p = (p, ⟨true, some 0, some 0, p⟩) := by
  unfold smooth
  rw [if_pos (show p.ts > (init exact).position.ts from hp)]
  dsimp only
  rw [if_pos (Or.inl (show (init exact).wasCalled = false from rfl))]
  rfl

theorem ex_next (x y : ℝ) (ts : Int) (hv : |y - x| ≤ 20) :
    ∃ v, smooth exact (fun a => a ≠ none) (fun _ _ => True) exP ⟨true, some 0, some 0, at_ (some x) ts⟩ (at_ (some y) (ts + 1000)) =
      (at_ (some ((x + y) / 2)) (ts + 1000), ⟨true, some v, some 0, at_ (some ((x + y) / 2)) (ts + 1000)⟩) ∧ v = (y - x) / 6 := by
  refine ⟨_, ?_, rfl⟩
  unfold smooth
  rw [if_pos (show (at_ (some y) (ts + 1000)).ts > (at_ (some x) ts).ts by simp [at_])]
  have et : exact.div (exact.lit (((at_ (some y) (ts + 1000)).ts - (at_ (some x) ts).ts : Int) : ℝ)) (exact.lit 1000) = some 1 := by
    have : (((at_ (some y) (ts + 1000)).ts - (at_ (some x) ts).ts : Int) : ℝ) = 1000 := by simp [at_]
    rw [this]
    have := e_div (1000 : ℝ) (y := 1000) (by norm_num)
    rw [show (1000 : ℝ) / 1000 = 1 by norm_num] at this
    exact this
  have eg : gain exact exP ⟨true, some 0, some 0, at_ (some x) ts⟩ (at_ (some y) (ts + 1000)) = some (1 / 2) := rfl
  dsimp only
  rw [et, eg]
  have eb : exact.div (exact.mul (some (1 / 2)) (some (1 / 2))) (exact.sub (exact.lit 2) (some (1 / 2))) = some (1 / 6) := by
    have := e_div ((1 / 2 : ℝ) * (1 / 2)) (y := 2 - 1 / 2) (by norm_num)
    rw [show (1 / 2 : ℝ) * (1 / 2) / (2 - 1 / 2) = 1 / 6 by norm_num] at this
    exact this
  rw [eb]
  have ec : exact.div (some (1 / 6)) (some 1) = some (1 / 6) := by
    have := e_div (1 / 6 : ℝ) (y := 1) (by norm_num)
    rw [show (1 / 6 : ℝ) / 1 = 1 / 6 by norm_num] at this
    exact this
  rw [ec]
  have e1 : exact.add (exact.add (at_ (some x) ts).x (exact.mul (some 0) (some 1)))
      (exact.mul (some (1 / 2)) (exact.sub (at_ (some y) (ts + 1000)).x (exact.add (at_ (some x) ts).x (exact.mul (some 0) (some 1))))) =
      some ((x + y) / 2) := by
    show some (x + 0 * 1 + 1 / 2 * (y - (x + 0 * 1))) = some ((x + y) / 2)
    congr 1
    ring
  have e2 : exact.add (exact.add (at_ (some x) ts).y (exact.mul (some 0) (some 1)))
      (exact.mul (some (1 / 2)) (exact.sub (at_ (some y) (ts + 1000)).y (exact.add (at_ (some x) ts).y (exact.mul (some 0) (some 1))))) =
      some 0 := by
    show some (0 + 0 * 1 + 1 / 2 * (0 - (0 + 0 * 1)) : ℝ) = some 0
    congr 1
    ring
  have e3 : exact.add (some 0) (exact.mul (some (1 / 6)) (exact.sub (at_ (some y) (ts + 1000)).x
      (exact.add (at_ (some x) ts).x (exact.mul (some 0) (some 1))))) = some ((y - x) / 6) := by
    show some (0 + 1 / 6 * (y - (x + 0 * 1))) = some ((y - x) / 6)
    congr 1
    ring
  have e4 : exact.add (some 0) (exact.mul (some (1 / 6)) (exact.sub (at_ (some y) (ts + 1000)).y
      (exact.add (at_ (some x) ts).y (exact.mul (some 0) (some 1))))) = some 0 := by
    show some (0 + 1 / 6 * (0 - (0 + 0 * 1)) : ℝ) = some 0
    congr 1
    ring
  rw [e1, e2, e3, e4]
  have ev : exact.sqrt (exact.add (exact.mul (some ((y - x) / 6)) (some ((y - x) / 6))) (exact.mul (some 0) (some 0))) =
      some (|y - x| / 6) := by
    show (if (y - x) / 6 * ((y - x) / 6) + 0 * 0 < 0 then none else some (Real.sqrt ((y - x) / 6 * ((y - x) / 6) + 0 * 0))) = _
    rw [if_neg (by nlinarith [mul_self_nonneg ((y - x) / 6)]), show (y - x) / 6 * ((y - x) / 6) + 0 * 0 = (y - x) / 6 * ((y - x) / 6) by ring,
      Real.sqrt_mul_self_eq_abs, abs_div]
    norm_num
  rw [ev]
  have hc : ¬ (true = false ∨ exact.lt (exact.lit TIME_THRESHOLD_SEC) (some 1) ∨
      (exP.useSpeedConstraint = true ∧ exact.lt (exact.lit MAX_OBJECT_VELOCITY_MPS) (some (|y - x| / 6))) ∨
      (exP.useBarriers = true ∧ ¬ True)) := by
    rintro (h | h | ⟨-, h⟩ | ⟨h, -⟩)
    · exact absurd h (by decide)
    · have : (10 : ℝ) < 1 := h
      norm_num at this
    · have : (4 : ℝ) < |y - x| / 6 := h
      linarith
    · exact absurd h (by decide)
  rw [if_neg hc]
  have hfin : (some ((x + y) / 2) : Option ℝ) ≠ none ∧ (some 0 : Option ℝ) ≠ none := ⟨by simp, by simp⟩
  simp only [if_pos hfin]
  rfl

/-- **C148, an example.** One bad place among three, a second apart: the third one is told as given. With a number in its place the
third one is told half way. -/
theorem C148_example :
    ((run exact (fun a => a ≠ none) (fun _ _ => True) exP (init exact) [at_ (some 0) 1000, at_ none 2000, at_ (some 10) 3000]).1.map coords =
      [(some 0, some 0), (none, some 0), (some 10, some 0)]) ∧
    (run exact (fun a => a ≠ none) (fun _ _ => True) exP (init exact) [at_ (some 0) 1000, at_ (some 0) 2000, at_ (some 10) 3000]).1.map coords =
      [(some 0, some 0), (some 0, some 0), (some 5, some 0)] := by
  have h1 := ex_first (at_ (some 0) 1000) (by simp [at_])
  constructor
  · have hoff := C148_off exact_propagates (fun a => a ≠ none) (fun a h => by simpa [nan_iff] using h) (fun _ _ => True) exP rfl
      [at_ (some 0) 1000] (at_ none 2000) (Or.inl rfl) (by
        unfold run
        dsimp only
        rw [h1]
        show (1000 : Int) < 2000
        norm_num) [at_ (some 10) 3000] (by
        rw [List.isChain_cons_cons, C148_soon]
        exact ⟨by simp [at_], List.isChain_singleton _⟩)
    have e : (run exact (fun a => a ≠ none) (fun _ _ => True) exP (init exact) [at_ (some 0) 1000, at_ none 2000, at_ (some 10) 3000]).1.map
        coords = coords (at_ (some 0) 1000) :: (run exact (fun a => a ≠ none) (fun _ _ => True) exP
          (run exact (fun a => a ≠ none) (fun _ _ => True) exP (init exact) [at_ (some 0) 1000]).2 [at_ none 2000, at_ (some 10) 3000]).1.map
          coords := by
      rw [show (run exact (fun a => a ≠ none) (fun _ _ => True) exP (init exact) [at_ (some 0) 1000]).2 =
        ⟨true, some 0, some 0, at_ (some 0) 1000⟩ by unfold run; dsimp only; rw [h1]; rfl]
      rw [run]
      dsimp only
      rw [h1, List.map_cons]
    rw [e, hoff]
    rfl
  · obtain ⟨v, h2, hv⟩ := ex_next 0 0 1000 (by norm_num)
    have hv0 : v = 0 := by rw [hv]; norm_num
    obtain ⟨w, h3, -⟩ := ex_next 0 10 2000 (by norm_num)
    rw [hv0] at h2
    norm_num at h2 h3
    simp only [run, h1, h2, h3, List.map_cons, List.map_nil]
    rfl

end Verif.Nan.Ab
