import Verif.Model.Functions

/-! Helper lemmas about the Rodrigues matrix. -/

namespace Ptera

open Real

theorem M3.ext_mulVec {M N : M3} (h : ∀ v, M.mulVec v = N.mulVec v) : M = N := by
  have hx := h ⟨1, 0, 0⟩
  have hy := h ⟨0, 1, 0⟩
  have hz := h ⟨0, 0, 1⟩
  simp [M3.mulVec, V3.dot] at hx hy hz
  ext <;> tauto

theorem rodrigues_mulVec (t : ℝ) (u v : V3) :
    (rodrigues t u).mulVec v
      = cos t • v + ((1 - cos t) * u.dot v) • u + sin t • u.cross v := by
  ext <;> simp [rodrigues, M3.mulVec, V3.dot] <;> ring

theorem rodrigues_mul (s t : ℝ) (u : V3) (hu : u.dot u = 1) :
    (rodrigues s u).mul (rodrigues t u) = rodrigues (s + t) u := by
  apply M3.ext_mulVec
  intro v
  rw [M3.mul_mulVec]
  have h1 : u.dot ((rodrigues t u).mulVec v) = u.dot v := by
    rw [rodrigues_mulVec, V3.dot_add, V3.dot_add, V3.dot_smul, V3.dot_smul, V3.dot_smul, hu,
      V3.dot_cross_self]
    ring
  have h2 : u.cross ((rodrigues t u).mulVec v)
      = cos t • u.cross v + sin t • ((u.dot v) • u - v) := by
    rw [rodrigues_mulVec, V3.cross_add, V3.cross_add, V3.cross_smul, V3.cross_smul, V3.cross_smul,
      V3.cross_self, V3.cross_cross, hu]
    simp
  rw [rodrigues_mulVec s, h1, h2, rodrigues_mulVec, rodrigues_mulVec, cos_add, sin_add]
  generalize u.dot v = d
  generalize u.cross v = w
  ext <;> simp <;> ring

theorem rodrigues_zero (u : V3) : rodrigues 0 u = M3.one := by
  ext <;> simp [rodrigues, M3.one]

theorem rodrigues_transpose (t : ℝ) (u : V3) : rodrigues (-t) u = (rodrigues t u).transpose := by
  ext <;> simp only [rodrigues, M3.transpose, cos_neg, sin_neg] <;> ring

/-- The Rodrigues matrix of a unit axis is a proper rotation. -/
theorem rodrigues_isRot (t : ℝ) (u : V3) (hu : u.dot u = 1) : (rodrigues t u).IsRot := by
  have ho : ∀ t, (rodrigues t u).IsOrtho := by
    intro t
    unfold M3.IsOrtho
    rw [← rodrigues_transpose, rodrigues_mul _ _ _ hu, neg_add_cancel, rodrigues_zero]
  refine ⟨ho t, ?_⟩
  have h1 : ∀ t, (rodrigues t u).det * (rodrigues t u).det = 1 := by
    intro t
    have := congrArg M3.det (ho t)
    rw [M3.det_mul, M3.det_transpose] at this
    rw [this]; simp [M3.det, M3.one, V3.dot]
  have h2 : rodrigues t u = (rodrigues (t / 2) u).mul (rodrigues (t / 2) u) := by
    rw [rodrigues_mul _ _ _ hu, add_halves]
  rw [h2, M3.det_mul, h1]

theorem rodrigues_fixes (t : ℝ) (u : V3) (hu : u.dot u = 1) : (rodrigues t u).mulVec u = u := by
  rw [rodrigues_mulVec, hu, V3.cross_self]
  ext <;> simp

theorem unitize_dot {a : V3} (h : a ≠ 0) : ((1 / a.norm) • a).dot ((1 / a.norm) • a) = 1 := by
  have hn : a.norm ≠ 0 := fun h' => h (V3.norm_eq_zero.mp h')
  rw [V3.smul_dot, V3.dot_smul, ← V3.norm_mul_self]
  field_simp

end Ptera
