import Mathlib.Analysis.SpecialFunctions.Sqrt
import Mathlib.Analysis.SpecialFunctions.Pow.NNReal
import Mathlib.LinearAlgebra.Matrix.NonsingularInverse
import Mathlib.Tactic.Ring
import Mathlib.Tactic.Linarith
import Mathlib.Tactic.FieldSimp
import Mathlib.Tactic.NormNum
import Mathlib.Tactic.Positivity
import Mathlib.Tactic.LinearCombination

/-!
# Three-vectors and 3×3 matrices over the reals

Pure mathematics, no code of the repository.  A numpy array of shape `(3,)` is a `V3`; a numpy array of
shape `(3, 3)` is an `M3` (three rows).
-/

namespace Ptera

/-- A numpy array of shape `(3,)` with real entries. -/
@[ext] structure V3 where
  x : ℝ
  y : ℝ
  z : ℝ

namespace V3

noncomputable section

instance : Zero V3 := ⟨⟨0, 0, 0⟩⟩
instance : Add V3 := ⟨fun a b => ⟨a.x + b.x, a.y + b.y, a.z + b.z⟩⟩
instance : Neg V3 := ⟨fun a => ⟨-a.x, -a.y, -a.z⟩⟩
instance : Sub V3 := ⟨fun a b => ⟨a.x - b.x, a.y - b.y, a.z - b.z⟩⟩
instance : SMul ℝ V3 := ⟨fun c a => ⟨c * a.x, c * a.y, c * a.z⟩⟩

@[simp] theorem zero_x : (0 : V3).x = 0 := rfl
@[simp] theorem zero_y : (0 : V3).y = 0 := rfl
@[simp] theorem zero_z : (0 : V3).z = 0 := rfl
@[simp] theorem add_x (a b : V3) : (a + b).x = a.x + b.x := rfl
@[simp] theorem add_y (a b : V3) : (a + b).y = a.y + b.y := rfl
@[simp] theorem add_z (a b : V3) : (a + b).z = a.z + b.z := rfl
@[simp] theorem neg_x (a : V3) : (-a).x = -a.x := rfl
@[simp] theorem neg_y (a : V3) : (-a).y = -a.y := rfl
@[simp] theorem neg_z (a : V3) : (-a).z = -a.z := rfl
@[simp] theorem sub_x (a b : V3) : (a - b).x = a.x - b.x := rfl
@[simp] theorem sub_y (a b : V3) : (a - b).y = a.y - b.y := rfl
@[simp] theorem sub_z (a b : V3) : (a - b).z = a.z - b.z := rfl
@[simp] theorem smul_x (c : ℝ) (a : V3) : (c • a).x = c * a.x := rfl
@[simp] theorem smul_y (c : ℝ) (a : V3) : (c • a).y = c * a.y := rfl
@[simp] theorem smul_z (c : ℝ) (a : V3) : (c • a).z = c * a.z := rfl

instance : AddCommGroup V3 where
  add_assoc a b c := by ext <;> simp [add_assoc]
  zero_add a := by ext <;> simp
  add_zero a := by ext <;> simp
  add_comm a b := by ext <;> simp [add_comm]
  neg_add_cancel a := by ext <;> simp
  sub_eq_add_neg a b := by ext <;> simp [sub_eq_add_neg]
  nsmul := nsmulRec
  zsmul := zsmulRec

instance : Module ℝ V3 where
  one_smul a := by ext <;> simp
  mul_smul c d a := by ext <;> simp [mul_assoc]
  smul_zero c := by ext <;> simp
  smul_add c a b := by ext <;> simp [mul_add]
  add_smul c d a := by ext <;> simp [add_mul]
  zero_smul a := by ext <;> simp

/-- `np.dot(a, b)` of two shape-`(3,)` arrays. -/
def dot (a b : V3) : ℝ := a.x * b.x + a.y * b.y + a.z * b.z

/-- `np.cross(a, b)` of two shape-`(3,)` arrays. -/
def cross (a b : V3) : V3 :=
  ⟨a.y * b.z - a.z * b.y, a.z * b.x - a.x * b.z, a.x * b.y - a.y * b.x⟩

/-- `np.linalg.norm(a)` of a shape-`(3,)` array. -/
def norm (a : V3) : ℝ := Real.sqrt (a.dot a)

@[simp] theorem cross_x (a b : V3) : (cross a b).x = a.y * b.z - a.z * b.y := rfl
@[simp] theorem cross_y (a b : V3) : (cross a b).y = a.z * b.x - a.x * b.z := rfl
@[simp] theorem cross_z (a b : V3) : (cross a b).z = a.x * b.y - a.y * b.x := rfl

theorem dot_comm (a b : V3) : a.dot b = b.dot a := by simp [dot]; ring
theorem dot_add (a b c : V3) : a.dot (b + c) = a.dot b + a.dot c := by simp [dot]; ring
theorem add_dot (a b c : V3) : (a + b).dot c = a.dot c + b.dot c := by simp [dot]; ring
theorem dot_sub (a b c : V3) : a.dot (b - c) = a.dot b - a.dot c := by simp [dot]; ring
theorem sub_dot (a b c : V3) : (a - b).dot c = a.dot c - b.dot c := by simp [dot]; ring
theorem dot_smul (k : ℝ) (a b : V3) : a.dot (k • b) = k * a.dot b := by simp [dot]; ring
theorem smul_dot (k : ℝ) (a b : V3) : (k • a).dot b = k * a.dot b := by simp [dot]; ring
theorem dot_neg (a b : V3) : a.dot (-b) = -a.dot b := by simp [dot]; ring
theorem neg_dot (a b : V3) : (-a).dot b = -a.dot b := by simp [dot]; ring
@[simp] theorem dot_zero (a : V3) : a.dot 0 = 0 := by simp [dot]
@[simp] theorem zero_dot (a : V3) : (0 : V3).dot a = 0 := by simp [dot]

theorem cross_anticomm (a b : V3) : a.cross b = -(b.cross a) := by ext <;> simp <;> ring
@[simp] theorem cross_self (a : V3) : a.cross a = 0 := by ext <;> simp <;> ring
@[simp] theorem cross_zero (a : V3) : a.cross 0 = 0 := by ext <;> simp
@[simp] theorem zero_cross (a : V3) : (0 : V3).cross a = 0 := by ext <;> simp
theorem cross_add (a b c : V3) : a.cross (b + c) = a.cross b + a.cross c := by
  ext <;> simp <;> ring
theorem add_cross (a b c : V3) : (a + b).cross c = a.cross c + b.cross c := by
  ext <;> simp <;> ring
theorem cross_sub (a b c : V3) : a.cross (b - c) = a.cross b - a.cross c := by
  ext <;> simp <;> ring
theorem sub_cross (a b c : V3) : (a - b).cross c = a.cross c - b.cross c := by
  ext <;> simp <;> ring
theorem cross_smul (k : ℝ) (a b : V3) : a.cross (k • b) = k • a.cross b := by
  ext <;> simp <;> ring
theorem smul_cross (k : ℝ) (a b : V3) : (k • a).cross b = k • a.cross b := by
  ext <;> simp <;> ring
theorem cross_neg (a b : V3) : a.cross (-b) = -a.cross b := by ext <;> simp <;> ring
theorem neg_cross (a b : V3) : (-a).cross b = -a.cross b := by ext <;> simp <;> ring

@[simp] theorem dot_cross_self (a b : V3) : a.dot (a.cross b) = 0 := by simp [dot]; ring
@[simp] theorem dot_cross_self' (a b : V3) : b.dot (a.cross b) = 0 := by simp [dot]; ring
@[simp] theorem cross_dot_self (a b : V3) : (a.cross b).dot a = 0 := by simp [dot]; ring
@[simp] theorem cross_dot_self' (a b : V3) : (a.cross b).dot b = 0 := by simp [dot]; ring

theorem dot_self_nonneg (a : V3) : 0 ≤ a.dot a := by
  unfold dot; nlinarith [mul_self_nonneg a.x, mul_self_nonneg a.y, mul_self_nonneg a.z]

theorem dot_self_eq_zero {a : V3} : a.dot a = 0 ↔ a = 0 := by
  constructor
  · intro h
    unfold dot at h
    have hx := mul_self_nonneg a.x
    have hy := mul_self_nonneg a.y
    have hz := mul_self_nonneg a.z
    ext
    · exact mul_self_eq_zero.mp (by linarith)
    · exact mul_self_eq_zero.mp (by linarith)
    · exact mul_self_eq_zero.mp (by linarith)
  · rintro rfl; simp

theorem norm_nonneg (a : V3) : 0 ≤ a.norm := Real.sqrt_nonneg _
theorem norm_sq (a : V3) : a.norm ^ 2 = a.dot a := Real.sq_sqrt (dot_self_nonneg a)
theorem norm_mul_self (a : V3) : a.norm * a.norm = a.dot a :=
  Real.mul_self_sqrt (dot_self_nonneg a)
theorem norm_eq_zero {a : V3} : a.norm = 0 ↔ a = 0 := by
  unfold norm
  rw [Real.sqrt_eq_zero (dot_self_nonneg a), dot_self_eq_zero]
@[simp] theorem norm_zero : (0 : V3).norm = 0 := norm_eq_zero.mpr rfl
theorem norm_pos {a : V3} : 0 < a.norm ↔ a ≠ 0 := by
  rw [lt_iff_le_and_ne]
  constructor
  · rintro ⟨_, h⟩ h'; exact h (norm_eq_zero.mpr h').symm
  · intro h; exact ⟨norm_nonneg a, fun h' => h (norm_eq_zero.mp h'.symm)⟩
theorem norm_neg (a : V3) : (-a).norm = a.norm := by simp [norm, dot]
theorem norm_smul (k : ℝ) (a : V3) : (k • a).norm = |k| * a.norm := by
  unfold norm
  rw [smul_dot, dot_smul, ← mul_assoc, Real.sqrt_mul (mul_self_nonneg k), Real.sqrt_mul_self_eq_abs]
theorem norm_sub_comm (a b : V3) : (a - b).norm = (b - a).norm := by
  rw [← norm_neg (a - b), neg_sub]

/-- Lagrange's identity. -/
theorem cross_dot_cross (a b : V3) :
    (a.cross b).dot (a.cross b) = a.dot a * b.dot b - (a.dot b) ^ 2 := by
  simp [dot]; ring

theorem norm_cross_sq (a b : V3) :
    (a.cross b).norm ^ 2 = a.norm ^ 2 * b.norm ^ 2 - (a.dot b) ^ 2 := by
  rw [norm_sq, norm_sq, norm_sq, cross_dot_cross]

/-- Cauchy–Schwarz. -/
theorem dot_sq_le (a b : V3) : (a.dot b) ^ 2 ≤ a.dot a * b.dot b := by
  have := dot_self_nonneg (a.cross b)
  rw [cross_dot_cross] at this
  linarith

theorem abs_dot_le (a b : V3) : |a.dot b| ≤ a.norm * b.norm := by
  apply abs_le_of_sq_le_sq
  · rw [mul_pow, norm_sq, norm_sq]; exact dot_sq_le a b
  · exact mul_nonneg (norm_nonneg a) (norm_nonneg b)

theorem dot_le (a b : V3) : a.dot b ≤ a.norm * b.norm := le_trans (le_abs_self _) (abs_dot_le a b)

/-- Triple product expansion. -/
theorem cross_cross (a b c : V3) : a.cross (b.cross c) = (a.dot c) • b - (a.dot b) • c := by
  ext <;> simp [dot] <;> ring

theorem norm_add_le (a b : V3) : (a + b).norm ≤ a.norm + b.norm := by
  apply le_of_sq_le_sq _ (add_nonneg (norm_nonneg a) (norm_nonneg b))
  rw [norm_sq, add_dot, dot_add, dot_add, dot_comm b a, add_sq, norm_sq, norm_sq]
  linarith [dot_le a b]
where
  le_of_sq_le_sq {x y : ℝ} (h : x ^ 2 ≤ y ^ 2) (hy : 0 ≤ y) : x ≤ y :=
    le_trans (le_abs_self x) (abs_le_of_sq_le_sq h hy)

theorem norm_cross_le (a b : V3) : (a.cross b).norm ≤ a.norm * b.norm := by
  apply le_trans (le_abs_self _)
  apply abs_le_of_sq_le_sq _ (mul_nonneg (norm_nonneg a) (norm_nonneg b))
  rw [norm_cross_sq, mul_pow]
  nlinarith [sq_nonneg (a.dot b)]

end

end V3

/-- A numpy array of shape `(3, 3)`: its three rows. -/
@[ext] structure M3 where
  r0 : V3
  r1 : V3
  r2 : V3

namespace M3

noncomputable section

/-- `M @ v`. -/
def mulVec (M : M3) (v : V3) : V3 := ⟨M.r0.dot v, M.r1.dot v, M.r2.dot v⟩

/-- `M.T`. -/
def transpose (M : M3) : M3 :=
  ⟨⟨M.r0.x, M.r1.x, M.r2.x⟩, ⟨M.r0.y, M.r1.y, M.r2.y⟩, ⟨M.r0.z, M.r1.z, M.r2.z⟩⟩

/-- `M @ N`. -/
def mul (M N : M3) : M3 :=
  ⟨N.transpose.mulVec M.r0, N.transpose.mulVec M.r1, N.transpose.mulVec M.r2⟩

/-- `np.eye(3)`. -/
def one : M3 := ⟨⟨1, 0, 0⟩, ⟨0, 1, 0⟩, ⟨0, 0, 1⟩⟩

/-- The determinant. -/
def det (M : M3) : ℝ := M.r0.dot (M.r1.cross M.r2)

/-- `M` is orthogonal: `Mᵀ M = 1`. -/
def IsOrtho (M : M3) : Prop := M.transpose.mul M = one

/-- `M` is a proper rotation. -/
def IsRot (M : M3) : Prop := M.IsOrtho ∧ M.det = 1

@[simp] theorem transpose_transpose (M : M3) : M.transpose.transpose = M := rfl

theorem mulVec_add (M : M3) (v w : V3) : M.mulVec (v + w) = M.mulVec v + M.mulVec w := by
  ext <;> simp [mulVec, V3.dot_add]
theorem mulVec_sub (M : M3) (v w : V3) : M.mulVec (v - w) = M.mulVec v - M.mulVec w := by
  ext <;> simp [mulVec, V3.dot_sub]
theorem mulVec_neg (M : M3) (v : V3) : M.mulVec (-v) = -M.mulVec v := by
  ext <;> simp [mulVec, V3.dot_neg]
theorem mulVec_smul (M : M3) (k : ℝ) (v : V3) : M.mulVec (k • v) = k • M.mulVec v := by
  ext <;> simp [mulVec, V3.dot_smul]
@[simp] theorem mulVec_zero (M : M3) : M.mulVec 0 = 0 := by ext <;> simp [mulVec]
@[simp] theorem one_mulVec (v : V3) : one.mulVec v = v := by ext <;> simp [mulVec, one, V3.dot]

theorem mul_mulVec (M N : M3) (v : V3) : (M.mul N).mulVec v = M.mulVec (N.mulVec v) := by
  ext <;> simp [mulVec, mul, transpose, V3.dot] <;> ring

theorem mulVec_sum (M : M3) (l : List V3) : M.mulVec l.sum = (l.map M.mulVec).sum := by
  induction l with
  | nil => simp
  | cons a t ih => simp [mulVec_add, ih]

/-- The same matrix as a Mathlib matrix. -/
def toMatrix (M : M3) : Matrix (Fin 3) (Fin 3) ℝ :=
  !![M.r0.x, M.r0.y, M.r0.z; M.r1.x, M.r1.y, M.r1.z; M.r2.x, M.r2.y, M.r2.z]

theorem toMatrix_injective : Function.Injective toMatrix := by
  intro M N h
  have e : ∀ i j, M.toMatrix i j = N.toMatrix i j := fun i j => by rw [h]
  ext
  · simpa [toMatrix] using e 0 0
  · simpa [toMatrix] using e 0 1
  · simpa [toMatrix] using e 0 2
  · simpa [toMatrix] using e 1 0
  · simpa [toMatrix] using e 1 1
  · simpa [toMatrix] using e 1 2
  · simpa [toMatrix] using e 2 0
  · simpa [toMatrix] using e 2 1
  · simpa [toMatrix] using e 2 2

theorem toMatrix_mul (M N : M3) : (M.mul N).toMatrix = M.toMatrix * N.toMatrix := by
  ext i j
  fin_cases i <;> fin_cases j <;>
    simp [toMatrix, mul, mulVec, transpose, V3.dot, Matrix.mul_apply, Fin.sum_univ_three] <;> ring

theorem toMatrix_one : one.toMatrix = 1 := by
  ext i j
  fin_cases i <;> fin_cases j <;> simp [toMatrix, one]

theorem IsOrtho.mul_transpose {M : M3} (h : M.IsOrtho) : M.mul M.transpose = one := by
  apply toMatrix_injective
  have h' := congrArg toMatrix h
  rw [toMatrix_mul, toMatrix_one] at h' ⊢
  exact mul_eq_one_comm.mp h'

theorem IsOrtho.transpose {M : M3} (h : M.IsOrtho) : M.transpose.IsOrtho := by
  unfold IsOrtho
  rw [transpose_transpose]
  exact h.mul_transpose

theorem det_transpose (M : M3) : M.transpose.det = M.det := by
  simp [det, M3.transpose, V3.dot]; ring

theorem IsRot.transpose {M : M3} (h : M.IsRot) : M.transpose.IsRot :=
  ⟨h.1.transpose, by rw [det_transpose]; exact h.2⟩

theorem dot_mulVec (M : M3) (v w : V3) :
    v.dot (M.mulVec w) = (M.transpose.mulVec v).dot w := by
  simp [mulVec, M3.transpose, V3.dot]; ring

theorem IsOrtho.transpose_mulVec {M : M3} (h : M.IsOrtho) (v : V3) :
    M.transpose.mulVec (M.mulVec v) = v := by
  rw [← mul_mulVec, h, one_mulVec]

theorem IsOrtho.mulVec_transpose {M : M3} (h : M.IsOrtho) (v : V3) :
    M.mulVec (M.transpose.mulVec v) = v := by
  rw [← mul_mulVec, h.mul_transpose, one_mulVec]

theorem IsOrtho.dot {M : M3} (h : M.IsOrtho) (v w : V3) :
    (M.mulVec v).dot (M.mulVec w) = v.dot w := by
  rw [dot_mulVec, h.transpose_mulVec]

theorem IsOrtho.norm {M : M3} (h : M.IsOrtho) (v : V3) : (M.mulVec v).norm = v.norm := by
  unfold V3.norm; rw [h.dot]

theorem transpose_cross (M : M3) (v w : V3) :
    M.transpose.mulVec ((M.mulVec v).cross (M.mulVec w)) = M.det • v.cross w := by
  ext <;> simp [mulVec, M3.transpose, V3.dot, det] <;> ring

theorem IsOrtho.cross {M : M3} (h : M.IsOrtho) (v w : V3) :
    (M.mulVec v).cross (M.mulVec w) = M.det • M.mulVec (v.cross w) := by
  rw [← h.mulVec_transpose ((M.mulVec v).cross (M.mulVec w)), transpose_cross, mulVec_smul]

theorem IsRot.cross {M : M3} (h : M.IsRot) (v w : V3) :
    (M.mulVec v).cross (M.mulVec w) = M.mulVec (v.cross w) := by
  rw [h.1.cross, h.2, one_smul]

theorem det_mul (M N : M3) : (M.mul N).det = M.det * N.det := by
  simp [mul, mulVec, M3.transpose, V3.dot, det]; ring

theorem transpose_mul (M N : M3) : (M.mul N).transpose = N.transpose.mul M.transpose := by
  ext <;> simp [mul, mulVec, M3.transpose, V3.dot] <;> ring

theorem mul_assoc (M N P : M3) : (M.mul N).mul P = M.mul (N.mul P) := by
  ext <;> simp [mul, mulVec, M3.transpose, V3.dot] <;> ring

theorem one_mul (M : M3) : one.mul M = M := by
  ext <;> simp [mul, mulVec, M3.transpose, V3.dot, one]

theorem mul_one (M : M3) : M.mul one = M := by
  ext <;> simp [mul, mulVec, M3.transpose, V3.dot, one]

theorem IsOrtho.mul {M N : M3} (hM : M.IsOrtho) (hN : N.IsOrtho) : (M.mul N).IsOrtho := by
  unfold IsOrtho
  rw [transpose_mul, mul_assoc, ← mul_assoc M.transpose M N, hM, one_mul, hN]

theorem IsRot.mul {M N : M3} (hM : M.IsRot) (hN : N.IsRot) : (M.mul N).IsRot :=
  ⟨hM.1.mul hN.1, by rw [det_mul, hM.2, hN.2]; norm_num⟩

end

end M3

end Ptera
