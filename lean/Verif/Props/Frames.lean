import Verif.Model.OperatingPoint
import Verif.Model.Functions
import Verif.Lemmas.Rotations

/-!
# Properties C01, C05, C06: reference frames, reflections, rotations
-/

namespace Ptera

open Real

/-! ## C01 -/

/-- C01: for every operating point the wind-to-geometry matrix is orthogonal with determinant 1. -/
theorem C01_rotation_is_proper (op : OperatingPoint) : op.rotationWindToGeometry.IsRot := by
  have ha := sin_sq_add_cos_sq (radians op.alpha)
  have hb := sin_sq_add_cos_sq (radians op.beta)
  have h1 : OperatingPoint.axesFlip.IsRot := by
    constructor
    · unfold M3.IsOrtho
      ext <;> simp [OperatingPoint.axesFlip, M3.mul, M3.mulVec, M3.transpose, V3.dot, M3.one]
    · simp [OperatingPoint.axesFlip, M3.det, V3.dot]
  have h2 : op.alphaRotation.IsRot := by
    constructor
    · unfold M3.IsOrtho
      ext <;> simp [OperatingPoint.alphaRotation, M3.mul, M3.mulVec, M3.transpose, V3.dot, M3.one] <;>
        linarith
    · simp [OperatingPoint.alphaRotation, M3.det, V3.dot]; linarith
  have h3 : op.betaRotation.IsRot := by
    constructor
    · unfold M3.IsOrtho
      ext <;> simp [OperatingPoint.betaRotation, M3.mul, M3.mulVec, M3.transpose, V3.dot, M3.one] <;>
        linarith
    · simp [OperatingPoint.betaRotation, M3.det, V3.dot]; linarith
  unfold OperatingPoint.rotationWindToGeometry
  rw [M3.mul_one]
  exact (h1.mul h2).mul h3

/-- C01: the freestream direction, spelled out for every angle of attack and sideslip (degrees). -/
theorem C01_freestream_direction (op : OperatingPoint) :
    op.freestreamDirection =
      ⟨cos (op.alpha * π / 180) * cos (op.beta * π / 180), -sin (op.beta * π / 180),
        sin (op.alpha * π / 180) * cos (op.beta * π / 180)⟩ := by
  unfold OperatingPoint.freestreamDirection OperatingPoint.rotationWindToGeometry
  rw [M3.mul_one, M3.mul_mulVec, M3.mul_mulVec]
  ext <;> simp [OperatingPoint.axesFlip, OperatingPoint.alphaRotation, OperatingPoint.betaRotation,
    M3.mulVec, V3.dot, radians]

/-- C01: the freestream direction is a unit vector. -/
theorem C01_freestream_direction_unit (op : OperatingPoint) : op.freestreamDirection.norm = 1 := by
  unfold OperatingPoint.freestreamDirection
  rw [(C01_rotation_is_proper op).1.norm]
  simp [V3.norm, V3.dot]

/-- C01: the freestream velocity has magnitude `|V|`, whatever the angles. -/
theorem C01_freestream_speed (op : OperatingPoint) : op.freestreamVelocity.norm = |op.velocity| := by
  unfold OperatingPoint.freestreamVelocity
  rw [V3.norm_smul, C01_freestream_direction_unit, mul_one]

/-- The theorems of C01 have no hypotheses; here is a case with both angles non-zero in which the
freestream has a non-zero sideways and upward component. -/
example : (({ alpha := 90, beta := 30, velocity := 2 } : OperatingPoint).freestreamVelocity).y = -1 := by
  have h : (30 : ℝ) * π / 180 = π / 6 := by ring
  simp [OperatingPoint.freestreamVelocity, C01_freestream_direction, h]

/-! ## C05 -/

/-- C05: reflecting twice is the identity. -/
theorem C05_reflect_involutive (p n q : V3) (hn : n.norm = 1) :
    reflectPointAcrossPlane (reflectPointAcrossPlane p n q) n q = p := by
  have h : n.x ^ 2 + n.y ^ 2 + n.z ^ 2 = 1 := by
    have := V3.norm_sq n; rw [hn] at this; simp [V3.dot] at this; linarith
  have hx : n.x ^ 2 = 1 - n.y ^ 2 - n.z ^ 2 := by linarith
  ext
  · simp [reflectPointAcrossPlane, V3.dot]
    linear_combination (4 * n.x * (n.x * p.x + n.y * p.y + n.z * p.z - q.x * n.x - q.y * n.y - q.z * n.z)) * h
  · simp [reflectPointAcrossPlane, V3.dot]
    linear_combination (4 * n.y * (n.x * p.x + n.y * p.y + n.z * p.z - q.x * n.x - q.y * n.y - q.z * n.z)) * h
  · simp [reflectPointAcrossPlane, V3.dot]
    linear_combination (4 * n.z * (n.x * p.x + n.y * p.y + n.z * p.z - q.x * n.x - q.y * n.y - q.z * n.z)) * h

/-- The reflection as a formula: subtract twice the signed distance along the normal. Holds for any `n`. -/
theorem reflect_eq (p n q : V3) :
    reflectPointAcrossPlane p n q = p - (2 * (p - q).dot n) • n := by
  ext <;> simp [reflectPointAcrossPlane, V3.dot] <;> ring

/-- C05: reflection preserves distances. -/
theorem C05_reflect_isometry (p p' n q : V3) (hn : n.norm = 1) :
    (reflectPointAcrossPlane p n q - reflectPointAcrossPlane p' n q).norm = (p - p').norm := by
  have h : n.dot n = 1 := by rw [← V3.norm_sq, hn]; norm_num
  have e : reflectPointAcrossPlane p n q - reflectPointAcrossPlane p' n q
      = (p - p') - (2 * (p - p').dot n) • n := by
    rw [reflect_eq, reflect_eq]; ext <;> simp [V3.dot] <;> ring
  unfold V3.norm
  congr 1
  rw [e]
  generalize p - p' = w
  rw [V3.sub_dot, V3.dot_sub, V3.dot_smul, V3.smul_dot, V3.dot_sub, V3.dot_smul, h, V3.dot_comm n]
  ring

/-- C05: exactly the points of the plane are fixed. -/
theorem C05_reflect_fixed_iff (p n q : V3) (hn : n.norm = 1) :
    reflectPointAcrossPlane p n q = p ↔ (p - q).dot n = 0 := by
  rw [reflect_eq]
  have hn0 : n ≠ 0 := by rintro rfl; simp at hn
  constructor
  · intro h
    have : (2 * (p - q).dot n) • n = 0 := sub_eq_self.mp h
    have h2 := congrArg V3.norm this
    rw [V3.norm_smul, hn, V3.norm_zero, mul_one, abs_eq_zero] at h2
    linarith
  · intro h; rw [h]; simp

/-- C05: the displacement is along the normal and the midpoint of a point and its image is on the plane,
so the image lies at the same distance on the other side. -/
theorem C05_reflect_mirror (p n q : V3) (hn : n.norm = 1) :
    (∃ k : ℝ, reflectPointAcrossPlane p n q - p = k • n) ∧
    ((1 / 2 : ℝ) • (p + reflectPointAcrossPlane p n q) - q).dot n = 0 ∧
    (reflectPointAcrossPlane p n q - q).dot n = -(p - q).dot n := by
  have h : n.dot n = 1 := by rw [← V3.norm_sq, hn]; norm_num
  rw [reflect_eq]
  refine ⟨⟨-(2 * (p - q).dot n), by ext <;> simp⟩, ?_, ?_⟩
  · have : (1 / 2 : ℝ) • (p + (p - (2 * (p - q).dot n) • n)) - q = (p - q) - ((p - q).dot n) • n := by
      ext <;> simp <;> ring
    rw [this, V3.sub_dot, V3.smul_dot, h]; ring
  · have : p - (2 * (p - q).dot n) • n - q = (p - q) - (2 * (p - q).dot n) • n := by
      ext <;> simp <;> ring
    rw [this, V3.sub_dot, V3.smul_dot, h]; ring

/-- A concrete case: an oblique plane through a point off the origin and a point off the plane. -/
example : (⟨3/5, 4/5, 0⟩ : V3).norm = 1 ∧
    reflectPointAcrossPlane ⟨1, 2, 3⟩ ⟨3/5, 4/5, 0⟩ ⟨0, 1, 0⟩ ≠ ⟨1, 2, 3⟩ := by
  constructor
  · simp [V3.norm, V3.dot]; norm_num
  · intro h; have := congrArg V3.x h; simp [reflectPointAcrossPlane, V3.dot] at this; norm_num at this

/-! ## C06 -/

/-- C06: for every angle and every non-zero axis the matrix is orthogonal with determinant 1. -/
theorem C06_proper_rotation (t : ℝ) (axis : V3) (h : axis ≠ 0) :
    (angleAxisRotationMatrix t axis).IsRot := by
  simpa [angleAxisRotationMatrix] using rodrigues_isRot t _ (unitize_dot h)

/-- C06: the same for an axis declared (and actually) normalized. -/
theorem C06_proper_rotation_normalized (t : ℝ) (axis : V3) (h : axis.norm = 1) :
    (angleAxisRotationMatrix t axis true).IsRot := by
  have : axis.dot axis = 1 := by rw [← V3.norm_sq, h]; norm_num
  simpa [angleAxisRotationMatrix] using rodrigues_isRot t _ this

/-- C06: the axis is fixed. -/
theorem C06_fixes_axis (t : ℝ) (axis : V3) (h : axis ≠ 0) :
    (angleAxisRotationMatrix t axis).mulVec axis = axis := by
  have hn : axis.norm ≠ 0 := fun h' => h (V3.norm_eq_zero.mp h')
  have := congrArg (axis.norm • ·) (rodrigues_fixes t _ (unitize_dot h))
  simp only [M3.mulVec_smul, smul_smul, mul_one_div_cancel hn, one_smul] at this
  simpa only [angleAxisRotationMatrix, Bool.false_eq_true, if_false] using this

/-- C06: rotations about one axis compose by adding their angles. -/
theorem C06_compose (s t : ℝ) (axis : V3) (h : axis ≠ 0) :
    (angleAxisRotationMatrix s axis).mul (angleAxisRotationMatrix t axis)
      = angleAxisRotationMatrix (s + t) axis := by
  simpa [angleAxisRotationMatrix] using rodrigues_mul s t _ (unitize_dot h)

/-- C06: negating the angle inverts the rotation, and this is the transpose. -/
theorem C06_inverse (t : ℝ) (axis : V3) (h : axis ≠ 0) :
    (angleAxisRotationMatrix (-t) axis).mul (angleAxisRotationMatrix t axis) = M3.one ∧
    angleAxisRotationMatrix (-t) axis = (angleAxisRotationMatrix t axis).transpose := by
  constructor
  · rw [C06_compose _ _ _ h, neg_add_cancel]
    simp [angleAxisRotationMatrix, rodrigues_zero]
  · simp [angleAxisRotationMatrix, rodrigues_transpose]

/-- C06: a vector orthogonal to a unit axis is turned by exactly the given angle, counter-clockwise seen
from the tip of the axis. -/
theorem C06_turns_by_angle (t : ℝ) (axis v : V3) (h : axis.norm = 1) (hv : axis.dot v = 0) :
    (angleAxisRotationMatrix t axis).mulVec v = cos t • v + sin t • axis.cross v := by
  simp only [angleAxisRotationMatrix, Bool.false_eq_true, if_false]
  rw [h, div_one, one_smul, rodrigues_mulVec, hv]
  simp

/-- C06: only the direction of the axis matters when it is normalized internally. -/
theorem C06_axis_length_irrelevant (t k : ℝ) (axis : V3) (hk : 0 < k) :
    angleAxisRotationMatrix t (k • axis) = angleAxisRotationMatrix t axis := by
  simp only [angleAxisRotationMatrix, Bool.false_eq_true, if_false]
  congr 1
  rw [V3.norm_smul, abs_of_pos hk, smul_smul]
  congr 1
  by_cases h : axis.norm = 0
  · simp [h]
  · field_simp

/-- A concrete case: an oblique axis. -/
example : (⟨1, 2, -2⟩ : V3) ≠ 0 ∧ (⟨1, 2, -2⟩ : V3).norm = 3 ∧
    (⟨1/3, 2/3, -2/3⟩ : V3).norm = 1 ∧ (⟨1/3, 2/3, -2/3⟩ : V3).dot ⟨2, -1, 0⟩ = 0 := by
  refine ⟨fun h => by have := congrArg V3.x h; simp at this, ?_, ?_, ?_⟩
  · rw [V3.norm, show (⟨1, 2, -2⟩ : V3).dot ⟨1, 2, -2⟩ = 3 ^ 2 by simp [V3.dot]; norm_num]
    exact Real.sqrt_sq (by norm_num)
  · simp [V3.norm, V3.dot]; norm_num
  · simp [V3.dot]; norm_num

end Ptera
