import Verif.Fusion.OrientSpec
import Verif.Fusion.Props

/-!
# Helper lemmas on rotations
-/

namespace Verif.Fusion

open Verif Verif.Pedo

theorem vec_ext {a b : Vector3d} (hx : a.x = b.x) (hy : a.y = b.y) (hz : a.z = b.z) : a = b := by
  cases a; cases b; simp only at hx hy hz; rw [hx, hy, hz]

/-- The vector `q v q*`. -/
noncomputable def sand (q : Quat) (v : Vector3d) : Vector3d := ((q.mul (Quat.ofVec v)).mul q.conj).toVec

theorem sand_mul (q p : Quat) (v : Vector3d) : sand (q.mul p) v = sand q (sand p v) := by
  apply vec_ext <;> simp only [sand, Quat.mul, Quat.ofVec, Quat.conj, Quat.toVec] <;> ring

theorem sand_unit (q : Quat) (h : q.normSq = 1) (v : Vector3d) : sand q v = toWorld q v := by
  unfold Quat.normSq at h
  apply vec_ext <;> simp only [sand, toWorld, Quat.mul, Quat.ofVec, Quat.conj, Quat.toVec]
  · linear_combination v.x * h
  · linear_combination v.y * h
  · linear_combination v.z * h

theorem sand_conj_unit (q : Quat) (h : q.normSq = 1) (v : Vector3d) :
    ((q.conj.mul (Quat.ofVec v)).mul q).toVec = toDevice q v := by
  unfold Quat.normSq at h
  apply vec_ext <;> simp only [toDevice, Quat.mul, Quat.ofVec, Quat.conj, Quat.toVec]
  · linear_combination v.x * h
  · linear_combination v.y * h
  · linear_combination v.z * h

theorem sand_conj (q : Quat) (v : Vector3d) : ((q.conj.mul (Quat.ofVec v)).mul q).toVec = sand q.conj v := by
  apply vec_ext <;> simp only [sand, Quat.mul, Quat.ofVec, Quat.conj, Quat.toVec] <;> ring

theorem toDevice_conj (q : Quat) (v : Vector3d) : toDevice q v = toWorld q.conj v := by
  apply vec_ext <;> simp only [toDevice, toWorld, Quat.conj] <;> ring

theorem dot_toWorld (q : Quat) (h : q.normSq = 1) (a b : Vector3d) : dot (toWorld q a) (toWorld q b) = dot a b := by
  have h1 : ∀ a b, dot (sand q a) (sand q b) = q.normSq ^ 2 * dot a b := by
    intro a b
    simp only [sand, dot, Quat.normSq, Quat.mul, Quat.ofVec, Quat.conj, Quat.toVec]
    ring
  rw [← sand_unit q h, ← sand_unit q h, h1, h]
  ring

theorem toWorld_toDevice (q : Quat) (h : q.normSq = 1) (v : Vector3d) : toWorld q (toDevice q v) = v := by
  have h1 : ∀ v, sand q (sand q.conj v) = ⟨q.normSq ^ 2 * v.x, q.normSq ^ 2 * v.y, q.normSq ^ 2 * v.z⟩ := by
    intro v
    apply vec_ext <;> simp only [sand, Quat.normSq, Quat.mul, Quat.ofVec, Quat.conj, Quat.toVec] <;> ring
  have h2 : q.conj.normSq = 1 := by rw [normSq_conj]; exact h
  rw [toDevice_conj, ← sand_unit q h, ← sand_unit _ h2, h1, h]
  apply vec_ext <;> simp

theorem toDevice_toWorld (q : Quat) (h : q.normSq = 1) (v : Vector3d) : toDevice q (toWorld q v) = v := by
  have h2 : q.conj.normSq = 1 := by rw [normSq_conj]; exact h
  have h3 : q = q.conj.conj := by ext <;> simp [Quat.conj]
  have := toWorld_toDevice q.conj h2 v
  rw [toDevice_conj, ← h3] at this
  rw [toDevice_conj]
  exact this

theorem dot_toDevice (q : Quat) (h : q.normSq = 1) (a b : Vector3d) : dot (toDevice q a) (toDevice q b) = dot a b := by
  rw [toDevice_conj, toDevice_conj]
  exact dot_toWorld _ (by rw [normSq_conj]; exact h) a b

/-- The square of the norm of the factor of an update. -/
theorem factor_normSq (v : Vector3d) : (⟨1, v.x / 2, v.y / 2, v.z / 2⟩ : Quat).normSq = 1 + dot v v / 4 := by
  simp only [Quat.normSq, dot]
  ring

theorem dot_self_nonneg (v : Vector3d) : 0 ≤ dot v v := by
  simp only [dot]
  have := mul_self_nonneg v.x
  have := mul_self_nonneg v.y
  have := mul_self_nonneg v.z
  linarith

/-- What an update of the orientation does, in general: the vector is first rotated by the factor. -/
theorem toWorld_update (q : Quat) (h : q.normSq = 1) (r v : Vector3d) :
    toWorld (updateQuaternion q r) v = toWorld q
      ⟨((1 - dot r r / 4) * v.x + (r.y * v.z - r.z * v.y) + dot r v * r.x / 2) / (1 + dot r r / 4),
       ((1 - dot r r / 4) * v.y + (r.z * v.x - r.x * v.z) + dot r v * r.y / 2) / (1 + dot r r / 4),
       ((1 - dot r r / 4) * v.z + (r.x * v.y - r.y * v.x) + dot r v * r.z / 2) / (1 + dot r r / 4)⟩ := by
  have hN : 0 < 1 + dot r r / 4 := by have := dot_self_nonneg r; linarith
  have hpre := update_pre q r h
  have hu := update_unit q r h
  rw [← sand_unit _ hu, ← sand_unit q h]
  unfold updateQuaternion
  rw [normalized_eq _ hpre]
  rw [update_eq_mul] at *
  have hn : (q.mul ⟨1, r.x / 2, r.y / 2, r.z / 2⟩).normSq = 1 + dot r r / 4 := by
    rw [normSq_mul, h, one_mul, factor_normSq]
  rw [hn]
  have hs : Real.sqrt (1 + dot r r / 4) ^ 2 = 1 + dot r r / 4 := Real.sq_sqrt hN.le
  have hs0 : Real.sqrt (1 + dot r r / 4) ≠ 0 := (Real.sqrt_pos.mpr hN).ne'
  generalize Real.sqrt (1 + dot r r / 4) = s at hs hs0
  have scale : ∀ (p : Quat) (v : Vector3d), sand ⟨p.w / s, p.x / s, p.y / s, p.z / s⟩ v =
      ⟨(sand p v).x / s ^ 2, (sand p v).y / s ^ 2, (sand p v).z / s ^ 2⟩ := by
    intro p v
    apply vec_ext <;> simp only [sand, Quat.mul, Quat.ofVec, Quat.conj, Quat.toVec] <;> field_simp
  have lin : ∀ (p : Quat) (v : Vector3d) (k : ℝ), sand p ⟨v.x / k, v.y / k, v.z / k⟩ =
      ⟨(sand p v).x / k, (sand p v).y / k, (sand p v).z / k⟩ := by
    intro p v k
    apply vec_ext <;> simp only [sand, Quat.mul, Quat.ofVec, Quat.conj, Quat.toVec] <;> ring
  rw [scale (q.mul ⟨1, r.x / 2, r.y / 2, r.z / 2⟩) v, sand_mul, hs]
  rw [show (⟨((1 - dot r r / 4) * v.x + (r.y * v.z - r.z * v.y) + dot r v * r.x / 2) / (1 + dot r r / 4),
       ((1 - dot r r / 4) * v.y + (r.z * v.x - r.x * v.z) + dot r v * r.y / 2) / (1 + dot r r / 4),
       ((1 - dot r r / 4) * v.z + (r.x * v.y - r.y * v.x) + dot r v * r.z / 2) / (1 + dot r r / 4)⟩ : Vector3d) =
      ⟨(sand ⟨1, r.x / 2, r.y / 2, r.z / 2⟩ v).x / (1 + dot r r / 4),
       (sand ⟨1, r.x / 2, r.y / 2, r.z / 2⟩ v).y / (1 + dot r r / 4),
       (sand ⟨1, r.x / 2, r.y / 2, r.z / 2⟩ v).z / (1 + dot r r / 4)⟩ from ?_, lin]
  apply vec_ext <;> simp only [sand, dot, Quat.mul, Quat.ofVec, Quat.conj, Quat.toVec] <;> ring

end Verif.Fusion
