import Verif.Model.Panel

/-!
# Properties C03, C04: panel geometry
-/

namespace Ptera

/-- Specification: area of the triangle with corners `a`, `b`, `c`. -/
noncomputable def triangleArea (a b c : V3) : ℝ := ((b - a).cross (c - a)).norm / 2

/-- Specification: the image of a panel under a map of space that keeps left and right. -/
def Panel.mapPoints (T : V3 → V3) (p : Panel) : Panel :=
  { p with frontRight := T p.frontRight, frontLeft := T p.frontLeft,
           backLeft := T p.backLeft, backRight := T p.backRight }

/-- Specification: the image of a panel under a map of space, with left and right exchanged. -/
def Panel.mapPointsSwap (T : V3 → V3) (p : Panel) : Panel :=
  { p with frontRight := T p.frontLeft, frontLeft := T p.frontRight,
           backLeft := T p.backRight, backRight := T p.backLeft }

/-! ## C03 -/

/-- C03: the unit normal of a panel whose diagonals are not parallel has length one and is orthogonal to
both diagonals. -/
theorem C03_unit_normal (p : Panel)
    (h : (p.frontRight - p.backLeft).cross (p.frontLeft - p.backRight) ≠ 0) :
    p.unitNormal.norm = 1 ∧
    p.unitNormal.dot (p.frontRight - p.backLeft) = 0 ∧
    p.unitNormal.dot (p.frontLeft - p.backRight) = 0 := by
  have h' : p.crossDiagonals ≠ 0 := h
  have hn : p.crossDiagonals.norm ≠ 0 := fun e => h' (V3.norm_eq_zero.mp e)
  refine ⟨?_, ?_, ?_⟩
  · unfold Panel.unitNormal
    rw [V3.norm_smul, abs_of_nonneg (by have := V3.norm_nonneg p.crossDiagonals; positivity)]
    field_simp
  · unfold Panel.unitNormal
    rw [V3.smul_dot]
    simp [Panel.crossDiagonals, Panel.firstDiagonal]
  · unfold Panel.unitNormal
    rw [V3.smul_dot]
    simp [Panel.crossDiagonals, Panel.secondDiagonal]

/-- C03: the normal points up (+z) for a panel seen from above with x downstream and left/right edges at
smaller/larger y: the orientation of the code's convention. -/
theorem C03_normal_orientation (p : Panel) (h : 0 < (p.crossDiagonals).z) : 0 < p.unitNormal.z := by
  have : p.crossDiagonals ≠ 0 := by intro e; rw [e] at h; simp at h
  have := V3.norm_pos.mpr this
  simp only [Panel.unitNormal, V3.smul_z]
  positivity

/-- C03: the area is non-negative and vanishes exactly for parallel diagonals. -/
theorem C03_area_nonneg (p : Panel) :
    0 ≤ p.area ∧
    (p.area = 0 ↔ (p.frontRight - p.backLeft).cross (p.frontLeft - p.backRight) = 0) := by
  refine ⟨by unfold Panel.area; have := V3.norm_nonneg p.crossDiagonals; positivity, ?_⟩
  rw [Panel.area, div_eq_zero_iff, V3.norm_eq_zero]
  simp [Panel.crossDiagonals, Panel.firstDiagonal, Panel.secondDiagonal]

/-- C03: for a planar convex panel (its diagonals cross) the area is the sum of the areas of the two
triangles on either side of a diagonal. -/
theorem C03_area_is_sum_of_triangles (p : Panel) (s t : ℝ) (ht0 : 0 ≤ t) (ht1 : t ≤ 1)
    (hcross : p.backLeft + s • (p.frontRight - p.backLeft)
      = p.backRight + t • (p.frontLeft - p.backRight)) :
    p.area = triangleArea p.backLeft p.frontRight p.frontLeft
      + triangleArea p.backLeft p.frontRight p.backRight := by
  set d1 := p.frontRight - p.backLeft with hd1
  set d2 := p.frontLeft - p.backRight with hd2
  have e1 : p.backRight - p.backLeft = s • d1 - t • d2 := by
    have := sub_eq_sub_iff_add_eq_add.mpr (show p.backRight + t • d2 = s • d1 + p.backLeft by
      rw [← hcross]; exact add_comm _ _)
    rw [← this]
  have e2 : p.frontLeft - p.backLeft = s • d1 + (1 - t) • d2 := by
    have : p.frontLeft - p.backLeft = (p.backRight - p.backLeft) + d2 := by rw [hd2]; abel
    rw [this, e1, sub_smul, one_smul]; abel
  have f1 : d1.cross (p.backRight - p.backLeft) = (-t) • d1.cross d2 := by
    rw [e1, V3.cross_sub, V3.cross_smul, V3.cross_smul, V3.cross_self]; ext <;> simp
  have f2 : d1.cross (p.frontLeft - p.backLeft) = (1 - t) • d1.cross d2 := by
    rw [e2, V3.cross_add, V3.cross_smul, V3.cross_smul, V3.cross_self]; ext <;> simp
  unfold triangleArea
  rw [← hd1, f1, f2, V3.norm_smul, V3.norm_smul, abs_neg, abs_of_nonneg ht0,
    abs_of_nonneg (by linarith : (0 : ℝ) ≤ 1 - t)]
  simp only [Panel.area, Panel.crossDiagonals, Panel.firstDiagonal, Panel.secondDiagonal, ← hd1, ← hd2]
  ring

/-- The projected area as a formula. -/
theorem projectedArea_eq (p : Panel) (n : V3) (hn : n.norm = 1) :
    p.projectedArea n = |n.dot p.crossDiagonals| / 2 := by
  have h : n.dot n = 1 := by rw [← V3.norm_sq, hn]; norm_num
  have key : ((p.firstDiagonal - (p.firstDiagonal.dot n) • n).cross
      (p.secondDiagonal - (p.secondDiagonal.dot n) • n)) = (n.dot p.crossDiagonals) • n := by
    have h' : n.x * n.x + n.y * n.y + n.z * n.z = 1 := by simpa [V3.dot] using h
    unfold Panel.crossDiagonals
    generalize p.firstDiagonal = a
    generalize p.secondDiagonal = b
    ext
    · simp [V3.dot]
      linear_combination (-(a.y * b.z) + a.z * b.y) * h'
    · simp [V3.dot]
      linear_combination (-(a.z * b.x) + a.x * b.z) * h'
    · simp [V3.dot]
      linear_combination (-(a.x * b.y) + a.y * b.x) * h'
  unfold Panel.projectedArea
  simp only [key]
  rw [V3.norm_smul, hn, mul_one]

/-- C03: projected area = area times the cosine between the direction and the panel normal. -/
theorem C03_projected_area (p : Panel) (n : V3) (hn : n.norm = 1) :
    p.projectedArea n = p.area * |n.dot p.unitNormal| := by
  rw [projectedArea_eq p n hn]
  by_cases h : p.crossDiagonals = 0
  · simp [h, Panel.area]
  · have hc := V3.norm_pos.mpr h
    unfold Panel.area Panel.unitNormal
    rw [V3.dot_smul, abs_mul, abs_of_pos (by positivity : 0 < 1 / p.crossDiagonals.norm)]
    field_simp

/-- C03: a projection never enlarges a panel, and along the normal it is the whole area. -/
theorem C03_projected_area_le (p : Panel) (n : V3) (hn : n.norm = 1) :
    0 ≤ p.projectedArea n ∧ p.projectedArea n ≤ p.area := by
  rw [projectedArea_eq p n hn]
  refine ⟨by positivity, ?_⟩
  have := V3.abs_dot_le n p.crossDiagonals
  rw [hn, one_mul] at this
  unfold Panel.area
  linarith

theorem C03_projected_area_normal (p : Panel) (h : p.area ≠ 0) :
    p.projectedArea p.unitNormal = p.area := by
  have hc : (p.frontRight - p.backLeft).cross (p.frontLeft - p.backRight) ≠ 0 :=
    fun e => h ((C03_area_nonneg p).2.mpr e)
  have hn := (C03_unit_normal p hc).1
  rw [C03_projected_area p _ hn, ← V3.norm_sq, hn]
  simp

/-- C03: the average span is the mean length of the front and the back edge, the average chord that of the side edges. -/
theorem C03_average_sizes (p : Panel) :
    2 * p.averageSpan = (p.frontLeft - p.frontRight).norm + (p.backLeft - p.backRight).norm ∧
    2 * p.averageChord = (p.frontLeft - p.backLeft).norm + (p.frontRight - p.backRight).norm := by
  have h1 : (p.backRight - p.backLeft).norm = (p.backLeft - p.backRight).norm := by
    rw [← V3.norm_neg, neg_sub]
  have h2 : (p.backLeft - p.frontLeft).norm = (p.frontLeft - p.backLeft).norm := by
    rw [← V3.norm_neg, neg_sub]
  unfold Panel.averageSpan Panel.averageChord Panel.frontLeg Panel.backLeg Panel.leftLeg Panel.rightLeg
  rw [h1, h2]
  constructor <;> ring

/-- C03: no panel is larger than its average span times its average chord. -/
theorem C03_area_le_span_times_chord (p : Panel) : p.area ≤ p.averageSpan * p.averageChord := by
  have e : (1 / 2 : ℝ) • p.crossDiagonals
      = ((1 / 2 : ℝ) • (p.rightLeg + -p.leftLeg)).cross ((1 / 2 : ℝ) • (p.frontLeg + -p.backLeg)) := by
    unfold Panel.crossDiagonals Panel.firstDiagonal Panel.secondDiagonal Panel.rightLeg Panel.leftLeg Panel.frontLeg
      Panel.backLeg
    ext <;> simp [V3.cross] <;> ring
  have h1 : p.area = ((1 / 2 : ℝ) • p.crossDiagonals).norm := by
    rw [V3.norm_smul, abs_of_pos (by norm_num)]; unfold Panel.area; ring
  have h2 : ((1 / 2 : ℝ) • (p.rightLeg + -p.leftLeg)).norm ≤ p.averageChord := by
    rw [V3.norm_smul, abs_of_pos (by norm_num)]
    have := V3.norm_add_le p.rightLeg (-p.leftLeg)
    rw [V3.norm_neg] at this
    unfold Panel.averageChord
    linarith
  have h3 : ((1 / 2 : ℝ) • (p.frontLeg + -p.backLeg)).norm ≤ p.averageSpan := by
    rw [V3.norm_smul, abs_of_pos (by norm_num)]
    have := V3.norm_add_le p.frontLeg (-p.backLeg)
    rw [V3.norm_neg] at this
    unfold Panel.averageSpan
    linarith
  rw [h1, e]
  calc _ ≤ _ := V3.norm_cross_le _ _
    _ ≤ p.averageChord * p.averageSpan := mul_le_mul h2 h3 (V3.norm_nonneg _) ((V3.norm_nonneg _).trans h2)
    _ = _ := mul_comm _ _

/-- C03: the spanwise (chordwise) unit vector has length one, points from left to right (from front to back) along the
mean of the two edges, and is orthogonal to the normal. -/
theorem C03_unit_directions (p : Panel) :
    (p.frontRight - p.frontLeft + (p.backRight - p.backLeft) ≠ 0 →
      p.unitSpanwise.norm = 1 ∧ p.unitSpanwise.dot p.unitNormal = 0 ∧
      ∃ c : ℝ, 0 < c ∧ p.unitSpanwise = c • (p.frontRight - p.frontLeft + (p.backRight - p.backLeft))) ∧
    (p.backLeft - p.frontLeft + (p.backRight - p.frontRight) ≠ 0 →
      p.unitChordwise.norm = 1 ∧ p.unitChordwise.dot p.unitNormal = 0 ∧
      ∃ c : ℝ, 0 < c ∧ p.unitChordwise = c • (p.backLeft - p.frontLeft + (p.backRight - p.frontRight))) := by
  have key : ∀ v d : V3, v ≠ 0 → (∃ α β : ℝ, v = α • p.firstDiagonal + β • p.secondDiagonal) →
      d = (1 / ((1 / 2 : ℝ) • v).norm) • ((1 / 2 : ℝ) • v) →
      d.norm = 1 ∧ d.dot p.unitNormal = 0 ∧ ∃ c : ℝ, 0 < c ∧ d = c • v := by
    rintro v d hv ⟨α, β, hab⟩ rfl
    have hv' := V3.norm_pos.mpr hv
    have hn : ((1 / 2 : ℝ) • v).norm = 1 / 2 * v.norm := by rw [V3.norm_smul, abs_of_pos (by norm_num)]
    rw [hn]
    refine ⟨?_, ?_, 1 / v.norm, by positivity, ?_⟩
    · rw [V3.norm_smul, hn, abs_of_pos (by positivity)]
      field_simp
    · have h0 : v.dot p.crossDiagonals = 0 := by
        rw [hab]; unfold Panel.crossDiagonals
        simp [V3.dot, V3.cross]; ring
      unfold Panel.unitNormal
      rw [V3.dot_smul, V3.smul_dot, V3.smul_dot, h0]
      ring
    · rw [smul_smul]
      congr 1
      field_simp
  constructor
  · intro h
    refine key _ _ h ⟨1, -1, ?_⟩ ?_
    · unfold Panel.firstDiagonal Panel.secondDiagonal
      ext <;> simp <;> ring
    · unfold Panel.unitSpanwise Panel.frontLeg Panel.backLeg
      simp only [neg_sub]
  · intro h
    refine key _ _ h ⟨-1, -1, ?_⟩ ?_
    · unfold Panel.firstDiagonal Panel.secondDiagonal
      ext <;> simp <;> ring
    · unfold Panel.unitChordwise Panel.rightLeg Panel.leftLeg
      simp only [neg_sub, add_comm (p.backRight - p.frontRight)]

/-- A concrete panel meeting the hypotheses of C03: a tapered convex planar quadrilateral. -/
example : let p : Panel := ⟨⟨0, 2, 0⟩, ⟨0, 0, 0⟩, ⟨1, 0, 0⟩, ⟨1, 1, 0⟩, true, true, true, true, 0, 0⟩
    (p.frontRight - p.backLeft).cross (p.frontLeft - p.backRight) ≠ 0 ∧ 0 < p.crossDiagonals.z ∧
    p.backLeft + (1/3 : ℝ) • (p.frontRight - p.backLeft)
      = p.backRight + (1/3 : ℝ) • (p.frontLeft - p.backRight) ∧ p.area = 3 / 2 := by
  refine ⟨fun h => ?_, ?_, ?_, ?_⟩
  · have := congrArg V3.z h; simp at this; norm_num at this
  · simp [Panel.crossDiagonals, Panel.firstDiagonal, Panel.secondDiagonal]; norm_num
  · ext <;> simp <;> norm_num
  · simp only [Panel.area, V3.norm, Panel.crossDiagonals, Panel.firstDiagonal, Panel.secondDiagonal]
    rw [show ∀ (x : ℝ), x = 3 ^ 2 → Real.sqrt x = 3 from fun x hx => by rw [hx]; exact Real.sqrt_sq (by norm_num)]
    simp [V3.dot]; norm_num

/-! ## C04 -/

/-- C04: the bound vortex end points are a quarter of the way from the front to the back of the side edges,
and the collocation point is the midpoint of the three-quarter points of the side edges. -/
theorem C04_quarter_three_quarter (p : Panel) :
    p.frontLeftVortexVertex - p.frontLeft = (1 / 4 : ℝ) • (p.backLeft - p.frontLeft) ∧
    p.frontRightVortexVertex - p.frontRight = (1 / 4 : ℝ) • (p.backRight - p.frontRight) ∧
    (2 : ℝ) • p.collocationPoint =
      (p.frontLeft + (3 / 4 : ℝ) • (p.backLeft - p.frontLeft))
      + (p.frontRight + (3 / 4 : ℝ) • (p.backRight - p.frontRight)) := by
  refine ⟨?_, ?_, ?_⟩ <;> ext <;>
    simp [-mul_eq_mul_right_iff, Panel.frontLeftVortexVertex, Panel.frontRightVortexVertex,
      Panel.collocationPoint, Panel.leftLeg, Panel.rightLeg] <;> ring

/-- C04: these points follow the panel under every affine map (translations, rotations, scalings...). -/
theorem C04_affine (p : Panel) (M : M3) (d : V3) :
    let T := fun x => M.mulVec x + d
    (p.mapPoints T).frontLeftVortexVertex = T p.frontLeftVortexVertex ∧
    (p.mapPoints T).frontRightVortexVertex = T p.frontRightVortexVertex ∧
    (p.mapPoints T).collocationPoint = T p.collocationPoint := by
  refine ⟨?_, ?_, ?_⟩ <;> ext <;>
    simp [Panel.mapPoints, Panel.frontLeftVortexVertex, Panel.frontRightVortexVertex,
      Panel.collocationPoint, Panel.leftLeg, Panel.rightLeg, M3.mulVec, V3.dot] <;> ring

/-- C04: mirroring a panel, with left and right exchanged, mirrors its collocation point and exchanges and
mirrors its bound vortex end points. -/
theorem C04_mirror (p : Panel) (M : M3) (d : V3) :
    let T := fun x => M.mulVec x + d
    (p.mapPointsSwap T).frontLeftVortexVertex = T p.frontRightVortexVertex ∧
    (p.mapPointsSwap T).frontRightVortexVertex = T p.frontLeftVortexVertex ∧
    (p.mapPointsSwap T).collocationPoint = T p.collocationPoint := by
  refine ⟨?_, ?_, ?_⟩ <;> ext <;>
    simp [Panel.mapPointsSwap, Panel.frontLeftVortexVertex, Panel.frontRightVortexVertex,
      Panel.collocationPoint, Panel.leftLeg, Panel.rightLeg, M3.mulVec, V3.dot] <;> ring

/-- A concrete panel (C04 has no hypotheses): a swept panel where the three points are distinct. -/
example : let p : Panel := ⟨⟨4, 1, 0⟩, ⟨0, 0, 0⟩, ⟨4, 0, 0⟩, ⟨8, 1, 0⟩, true, true, true, true, 0, 0⟩
    p.frontLeftVortexVertex = ⟨1, 0, 0⟩ ∧ p.frontRightVortexVertex = ⟨5, 1, 0⟩ ∧
    p.collocationPoint = ⟨5, 1/2, 0⟩ := by
  refine ⟨?_, ?_, ?_⟩ <;> ext <;>
    simp [Panel.frontLeftVortexVertex, Panel.frontRightVortexVertex, Panel.collocationPoint,
      Panel.leftLeg, Panel.rightLeg] <;> norm_num

end Ptera
