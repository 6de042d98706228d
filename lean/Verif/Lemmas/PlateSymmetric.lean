import Verif.Lemmas.TwoPanels
import Verif.Lemmas.MirroredRuns
import Verif.Props.UnsteadyExample

/-! A heaving rectangular wing built with `symmetric=True`, with one panel on each side, in a flow along the chord: the
unsteady solver solves it at every step. Concrete case for the theorems about symmetric motion. -/

namespace Ptera

open Real UnsteadySolver

namespace SymmetricPlate

/-! ## Influence of a rectangular ring -/

/-- Distance from the point to a corner. -/
noncomputable def D (x s : ℝ) : ℝ := √(x ^ 2 + s ^ 2)

theorem D_pos {x s : ℝ} (h : 1 / 4 ≤ x ^ 2) : 0 < D x s := Real.sqrt_pos.mpr (by positivity)

theorem D_sq (x s : ℝ) : D x s ^ 2 = x ^ 2 + s ^ 2 := Real.sq_sqrt (by positivity)

theorem half_le_D {x s : ℝ} (h : 1 / 4 ≤ x ^ 2) : 1 / 2 ≤ D x s := by
  unfold D
  apply Real.le_sqrt_of_sq_le
  nlinarith [sq_nonneg s]

theorem norm_D (x s : ℝ) : (⟨x, s, 0⟩ : V3).norm = D x s := by
  simp only [V3.norm, V3.dot, D]
  congr 1
  ring

/-- A chordwise filament from the distance `b` behind the point to the distance `a` (negative: ahead), `s` to the
right of it. -/
theorem side (X Y z a b s : ℝ) (ha : 1 / 4 ≤ a ^ 2) (hb : 1 / 4 ≤ b ^ 2) (hs : 1 / 4 ≤ s ^ 2) (hab : a + 1 ≤ b) :
    (expandedEntry 0 ⟨⟨X + b, Y + s, z⟩, ⟨X + a, Y + s, z⟩, 1, 0⟩ ⟨X, Y, z⟩).z
      = 1 / (4 * π) * ((b / D b s - a / D a s) / s) := by
  have e1 : (⟨X + b, Y + s, z⟩ : V3) - ⟨X, Y, z⟩ = ⟨b, s, 0⟩ := by ext <;> simp
  have e2 : (⟨X + a, Y + s, z⟩ : V3) - ⟨X, Y, z⟩ = ⟨a, s, 0⟩ := by ext <;> simp
  have e3 : (⟨b, s, 0⟩ : V3).cross ⟨a, s, 0⟩ = ⟨0, 0, (b - a) * s⟩ := by ext <;> simp [V3.cross]; ring
  have e4 : (⟨0, 0, (b - a) * s⟩ : V3).norm ^ 2 = (b - a) ^ 2 * s ^ 2 := by rw [V3.norm_sq]; simp [V3.dot]; ring
  have e5 : (⟨b, s, 0⟩ : V3).dot ⟨a, s, 0⟩ = b * a + s ^ 2 := by simp [V3.dot]; ring
  have hA := D_pos (s := s) ha
  have hB := D_pos (s := s) hb
  have hA2 := D_sq a s
  have hB2 := D_sq b s
  have hs0 : s ≠ 0 := by rintro rfl; norm_num at hs
  have hne : b - a ≠ 0 := by intro h0; linarith
  have hpi := Real.pi_pos
  rw [expandedEntry_eq, if_neg]
  · simp only [kernelCoeff, coreRadius, e1, e2, e3, e4, e5, norm_D, mul_zero, Real.sqrt_zero]
    simp only [V3.smul_z]
    have key : (D b s + D a s) * (D b s * D a s - (b * a + s ^ 2)) = (b - a) * (D a s * b - D b s * a) := by
      linear_combination D a s * hB2 + D b s * hA2
    rw [show (1 : ℝ) / (4 * π) * (D b s + D a s) * (D b s * D a s - (b * a + s ^ 2))
      = 1 / (4 * π) * ((D b s + D a s) * (D b s * D a s - (b * a + s ^ 2))) by ring, key]
    field_simp
    ring
  · unfold Cutoff
    simp only [e1, e2, e3, e4, norm_D]
    push Not
    have := TwoPanels.eps_small
    have := half_le_D (s := s) ha
    have := half_le_D (s := s) hb
    refine ⟨by linarith, by linarith, ?_⟩
    have h1 : 1 ≤ (b - a) ^ 2 := by nlinarith
    nlinarith

/-- A spanwise filament from the distance `t` to the right of the point to the distance `s`, `x` behind it. -/
theorem across (X Y z x s t : ℝ) (hx : 1 / 4 ≤ x ^ 2) (hst : s + 1 ≤ t) :
    (expandedEntry 0 ⟨⟨X + x, Y + t, z⟩, ⟨X + x, Y + s, z⟩, 1, 0⟩ ⟨X, Y, z⟩).z
      = 1 / (4 * π) * (-(t / D x t - s / D x s) / x) := by
  have e1 : (⟨X + x, Y + t, z⟩ : V3) - ⟨X, Y, z⟩ = ⟨x, t, 0⟩ := by ext <;> simp
  have e2 : (⟨X + x, Y + s, z⟩ : V3) - ⟨X, Y, z⟩ = ⟨x, s, 0⟩ := by ext <;> simp
  have e3 : (⟨x, t, 0⟩ : V3).cross ⟨x, s, 0⟩ = ⟨0, 0, -((t - s) * x)⟩ := by ext <;> simp [V3.cross]; ring
  have e4 : (⟨0, 0, -((t - s) * x)⟩ : V3).norm ^ 2 = (t - s) ^ 2 * x ^ 2 := by rw [V3.norm_sq]; simp [V3.dot]; ring
  have e5 : (⟨x, t, 0⟩ : V3).dot ⟨x, s, 0⟩ = t * s + x ^ 2 := by simp [V3.dot]; ring
  have hS := D_pos (s := s) hx
  have hT := D_pos (s := t) hx
  have hS2 := D_sq x s
  have hT2 := D_sq x t
  have hx0 : x ≠ 0 := by rintro rfl; norm_num at hx
  have hne : t - s ≠ 0 := by intro h0; linarith
  have hpi := Real.pi_pos
  rw [expandedEntry_eq, if_neg]
  · simp only [kernelCoeff, coreRadius, e1, e2, e3, e4, e5, norm_D, mul_zero, Real.sqrt_zero]
    simp only [V3.smul_z]
    have key : (D x t + D x s) * (D x t * D x s - (t * s + x ^ 2)) = (t - s) * (D x s * t - D x t * s) := by
      linear_combination D x s * hT2 + D x t * hS2
    rw [show (1 : ℝ) / (4 * π) * (D x t + D x s) * (D x t * D x s - (t * s + x ^ 2))
      = 1 / (4 * π) * ((D x t + D x s) * (D x t * D x s - (t * s + x ^ 2))) by ring, key]
    field_simp
    ring
  · unfold Cutoff
    simp only [e1, e2, e3, e4, norm_D]
    push Not
    have := TwoPanels.eps_small
    have := half_le_D (s := s) hx
    have := half_le_D (s := t) hx
    refine ⟨by linarith, by linarith, ?_⟩
    have h1 : 1 ≤ (t - s) ^ 2 := by nlinarith
    nlinarith

/-- Velocity due to the part of a ring to one side of the point, times `4 π`. -/
noncomputable def G (b s : ℝ) : ℝ := D (1 / 2) s / (1 / 2 * s) + D b s / (b * s)

theorem D_neg (x s : ℝ) : D (-x) s = D x s := by simp [D]

theorem ring_z (X Y z b s t : ℝ) (hb : 1 / 2 ≤ b) (hs : 1 / 4 ≤ s ^ 2) (ht : 1 / 4 ≤ t ^ 2) (hst : s + 1 ≤ t) :
    (unitVelocity (ringLegs ⟨X + b, Y + t, z⟩ ⟨X + -(1 / 2), Y + t, z⟩ ⟨X + -(1 / 2), Y + s, z⟩ ⟨X + b, Y + s, z⟩)
      ⟨X, Y, z⟩).z = 1 / (4 * π) * (G b t - G b s) := by
  have hb2 : 1 / 4 ≤ b ^ 2 := by nlinarith
  have ha2 : (1 : ℝ) / 4 ≤ (-(1 / 2)) ^ 2 := by norm_num
  unfold unitVelocity ringLegs
  simp only [List.map_cons, List.map_nil, List.sum_cons, List.sum_nil, add_zero, V3.add_z]
  rw [side X Y z _ b t ha2 hb2 ht (by linarith), across X Y z _ s t ha2 hst,
    TwoPanels.reverse_z ⟨X + -(1 / 2), Y + s, z⟩, side X Y z _ b s ha2 hb2 hs (by linarith),
    TwoPanels.reverse_z ⟨X + b, Y + s, z⟩, across X Y z b s t hb2 hst]
  simp only [D_neg]
  unfold G
  have h1 := D_pos (x := 1 / 2) (s := s) (by norm_num)
  have h2 := D_pos (x := 1 / 2) (s := t) (by norm_num)
  have h3 := D_pos (s := s) hb2
  have h4 := D_pos (s := t) hb2
  have hs0 : s ≠ 0 := by rintro rfl; norm_num at hs
  have ht0 : t ≠ 0 := by rintro rfl; norm_num at ht
  have hb0 : b ≠ 0 := by rintro rfl; norm_num at hb
  have k : ∀ x y, y ≠ 0 → x ≠ 0 → 0 < D x y → D x y / (x * y) = y / D x y / x + x / D x y / y := by
    intro x y hy hx hD
    have := D_sq x y
    field_simp
    linarith
  rw [k _ _ hs0 (by norm_num) h1, k _ _ ht0 (by norm_num) h2, k _ _ hs0 hb0 h3, k _ _ ht0 hb0 h4]
  ring

theorem G_neg (b s : ℝ) : G b (-s) = -G b s := by
  have : ∀ x, D x (-s) = D x s := by intro x; simp [D]
  unfold G
  rw [this, this, mul_neg, mul_neg, div_neg, div_neg]
  ring

theorem G_pos {b s : ℝ} (hb : 1 / 2 ≤ b) (hs : 0 < s) : 0 < G b s := by
  have h1 := D_pos (x := 1 / 2) (s := s) (by norm_num)
  have h2 := D_pos (x := b) (s := s) (by nlinarith)
  have : 0 < b := by linarith
  unfold G
  positivity

theorem G_anti {b s t : ℝ} (hb : 1 / 2 ≤ b) (hs : 0 < s) (hst : s < t) : G b t < G b s := by
  have key : ∀ x, 1 / 2 ≤ x → D x t / (x * t) < D x s / (x * s) := by
    intro x hx
    have hx0 : 0 < x := by linarith
    have ht : 0 < t := by linarith
    have h1 := D_pos (x := x) (s := s) (by nlinarith)
    have h2 := D_pos (x := x) (s := t) (by nlinarith)
    rw [div_lt_div_iff₀ (by positivity) (by positivity)]
    refine (sq_lt_sq₀ (by positivity) (by positivity)).mp ?_
    have e1 : (D x t * (x * s)) ^ 2 = (x ^ 2 + t ^ 2) * (x * s) ^ 2 := by rw [mul_pow, D_sq]
    have e2 : (D x s * (x * t)) ^ 2 = (x ^ 2 + s ^ 2) * (x * t) ^ 2 := by rw [mul_pow, D_sq]
    rw [e1, e2]
    have : s ^ 2 < t ^ 2 := by nlinarith
    have h4 : 0 < x ^ 4 := by positivity
    nlinarith
  unfold G
  have a1 := key (1 / 2) le_rfl
  have a2 := key b hb
  linarith

/-! ## The wing -/

/-- The panel between the chordwise lines at `y₀` and `y₁` of a wing at height `z`. -/
structure IsStrip (z y₀ y₁ : ℝ) (p : Panel) : Prop where
  frontLeft : p.frontLeft = ⟨0, y₀, z⟩
  frontRight : p.frontRight = ⟨0, y₁, z⟩
  backLeft : p.backLeft = ⟨1, y₀, z⟩
  backRight : p.backRight = ⟨1, y₁, z⟩
  trailing : p.isTrailingEdge = true

theorem IsStrip.normal {z y₀ y₁ : ℝ} {p : Panel} (h : IsStrip z y₀ y₁ p) (hy : y₀ < y₁) : p.unitNormal = ⟨0, 0, 1⟩ := by
  have hc : p.crossDiagonals = ⟨0, 0, 2 * (y₁ - y₀)⟩ := by
    ext <;> simp [Panel.crossDiagonals, Panel.firstDiagonal, Panel.secondDiagonal, V3.cross, h.frontLeft, h.frontRight,
      h.backLeft, h.backRight]
    ring
  have hn : (⟨0, 0, 2 * (y₁ - y₀)⟩ : V3).norm = 2 * (y₁ - y₀) := by
    simp only [V3.norm, V3.dot]
    rw [show (0 * 0 + 0 * 0 + 2 * (y₁ - y₀) * (2 * (y₁ - y₀)) : ℝ) = (2 * (y₁ - y₀)) ^ 2 by ring, Real.sqrt_sq (by linarith)]
  have hne : y₁ - y₀ ≠ 0 := by linarith
  unfold Panel.unitNormal
  rw [hc, hn]
  ext <;> simp
  field_simp

theorem IsStrip.points {z y₀ y₁ : ℝ} {p : Panel} (h : IsStrip z y₀ y₁ p) :
    p.collocationPoint = ⟨3 / 4, (y₀ + y₁) / 2, z⟩ ∧ p.frontRightVortexVertex = ⟨1 / 4, y₁, z⟩ ∧
    p.frontLeftVortexVertex = ⟨1 / 4, y₀, z⟩ := by
  refine ⟨?_, ?_, ?_⟩ <;> ext <;>
    simp [Panel.collocationPoint, Panel.frontRightVortexVertex, Panel.frontLeftVortexVertex, Panel.rightLeg,
      Panel.leftLeg, h.frontLeft, h.frontRight, h.backLeft, h.backRight] <;> norm_num
  ring

theorem wing_accepted (z : ℝ) :
    ∃ w, Wing.create (plates 1) ⟨0, 0, z⟩ ⟨0, 1, 0⟩ true ⟨1, 0, 0⟩ 1 "uniform" = .ok w :=
  plateWing_accepted (plates 1) true 1 one_pos "uniform" (by simp) (by simp [plates])
    (by simp [plates, plateSection]; rfl) (by
      intro s hs
      simp only [plates, List.mem_cons, List.not_mem_nil, or_false] at hs
      rcases hs with rfl | rfl <;> exact ⟨_, _, _, _, _, _, _, rfl, by norm_num⟩) ⟨0, 0, z⟩ (by simp [plates, plateSection])

/-- Its panels. -/
theorem wing_panels (z : ℝ) {w : Wing}
    (h : Wing.create (plates 1) ⟨0, 0, z⟩ ⟨0, 1, 0⟩ true ⟨1, 0, 0⟩ 1 "uniform" = .ok w) :
    w.numSpanwisePanels = 2 ∧ w.spec.numChordwisePanels = 1 ∧
    ∃ P Q, w.panels = [[P, Q]] ∧ IsStrip z (-1) 0 P ∧ IsStrip z 0 1 Q := by
  obtain ⟨hs, ha⟩ := Wing.create_ok _ _ _ _ _ _ _ w h
  have hsym : w.spec.symmetric = true := by rw [hs]
  have hcc : w.spec.chordwiseCoordinates = linspace 0 1 2 := by rw [hs]; simp [WingSpec.chordwiseCoordinates]
  have hle : w.spec.leadingEdge = ⟨0, 0, z⟩ := by rw [hs]
  have hch : w.spec.unitChordwise = ⟨1, 0, 0⟩ := by rw [hs]
  have hm : w.spec.numChordwisePanels = 1 := by rw [hs]
  have hhalf : halfSpan (plates 1) = 1 := by simp [halfSpan, plates, plateSection]
  have hn : w.numSpanwisePanels = 2 := by rw [ha.nspan, hs]; simp [plates, plateSection]
  obtain ⟨c1, c2, -⟩ := C18_wing_counts _ _ _ _ _ _ _ w h
  obtain ⟨row, hrow⟩ := List.length_eq_one_iff.mp c1
  have hr : row.length = 2 := by
    have := c2 row (by rw [hrow]; simp)
    rw [this, hn]
  obtain ⟨P, Q, rfl⟩ := List.length_eq_two.mp hr
  obtain ⟨⟨ia, oa, e1, e2, hR⟩, _⟩ := ha.section [] (plateSection ⟨0, 0, 0⟩ 1 0 0 "symmetric" 1 "uniform")
    (plateSection ⟨0, 1, 0⟩ 1 0 0 "symmetric" 1 "uniform") [] rfl 0 (by rw [hm]; norm_num)
  have h1 := hR 0 (by simp [plateSection])
  simp only [hsym, if_true, hhalf, List.map_nil, List.sum_nil, add_zero] at h1
  have hQ : cell w.panels 0 1 = some Q := by rw [hrow]; rfl
  have hP : cell w.panels 0 (w.numSpanwisePanels - 1 - 1) = some P := by rw [hrow, hn]; rfl
  have hQ' := hQ
  rw [h1, Option.some.injEq] at hQ'
  have v0 : ∀ (t : WingCrossSection) (i : ℕ), i < 2 → sectionVertex w.spec { plateSection ⟨0, 0, 0⟩ 1 0 0 "symmetric" 1 "uniform"
      with wingUnitChordwise := w.spec.unitChordwise } t ia oa i 0 = ⟨if i = 0 then 0 else 1, 0, z⟩ := by
    intro t i hi2
    rw [sectionVertex_inner _ _ _ _ _ _ (by simp [plateSection])]
    exact strip_point w.spec z 1 0 i hi2 hcc hle hch ia e1
  have v1 : ∀ (i : ℕ), i < 2 → sectionVertex w.spec { plateSection ⟨0, 0, 0⟩ 1 0 0 "symmetric" 1 "uniform"
      with wingUnitChordwise := w.spec.unitChordwise } { plateSection ⟨0, 1, 0⟩ 1 0 0 "symmetric" 1 "uniform"
      with wingUnitChordwise := w.spec.unitChordwise } ia oa i (0 + 1) = ⟨if i = 0 then 0 else 1, 1, z⟩ := by
    intro i hi2
    have := sectionVertex_outer w.spec { plateSection ⟨0, 0, 0⟩ 1 0 0 "symmetric" 1 "uniform"
      with wingUnitChordwise := w.spec.unitChordwise } { plateSection ⟨0, 1, 0⟩ 1 0 0 "symmetric" 1 "uniform"
      with wingUnitChordwise := w.spec.unitChordwise } ia oa i (by simp [plateSection])
    refine Eq.trans this ?_
    exact strip_point w.spec z 1 1 i hi2 hcc hle hch oa e2
  have hQs : IsStrip z 0 1 Q := by
    rw [← hQ']
    constructor
    · exact v0 _ 0 (by norm_num)
    · exact v1 0 (by norm_num)
    · exact v0 _ 1 (by norm_num)
    · exact v1 1 (by norm_num)
    · simp [Panel.place, rightPanel, hm]
  obtain ⟨m1, m2, m3, m4, -, m6⟩ := C21_mirror _ _ _ _ _ _ w h (by simp [plates, plateSection])
    (by simp [V3.norm, V3.dot]) 0 1 Q P hQ hP
  rw [reflect_y _ _ rfl] at m1 m2 m3 m4
  refine ⟨hn, hm, P, Q, hrow, ⟨?_, ?_, ?_, ?_, by rw [m6, hQs.trailing]⟩, hQs⟩
  · rw [m1, hQs.frontRight]; rfl
  · rw [m2, hQs.frontLeft]; simp [mirrored]
  · rw [m3, hQs.backRight]; rfl
  · rw [m4, hQs.backLeft]; simp [mirrored]

/-! ## The study -/

/-- A problem whose airplane is, at every step, that wing at height `z k`. -/
structure Study (p : UnsteadyProblem) (n : ℕ) (dt : ℝ) (z : ℕ → ℝ) (op : OperatingPoint) : Prop where
  made : p.Made
  steps : p.numSteps = n
  dt : p.deltaTime = dt
  step : ∀ k < n, p.operatingPointAt k = op ∧ ∃ a w P Q, p.airplanesAt k = [a] ∧ a.wings = [w] ∧
    w.numSpanwisePanels = 2 ∧ w.panels = [[P, Q]] ∧ w.spec.numChordwisePanels = 1 ∧ IsStrip (z k) (-1) 0 P ∧
    IsStrip (z k) 0 1 Q

theorem proper (A P : ℝ) : ∃ w, Wing.create (plates 1) ⟨0, 0, 0⟩ ⟨0, 1, 0⟩ true ⟨1, 0, 0⟩ 1 "uniform" = .ok w ∧
      (plateMovement w).Proper (plates 1) ∧ (plateMovement w).Still ∧ (heave w A P).Proper (plates 1) := by
  obtain ⟨w, hw⟩ := wing_accepted 0
  obtain ⟨hspec, hacc⟩ := Wing.create_ok _ _ _ _ _ _ _ _ hw
  have hp : (plateMovement w).Proper (plates 1) := by
    refine ⟨?_, ?_, ?_, ?_, ?_, ?_⟩
    · simp only [plateMovement, hspec]; exact hw
    · intro s hs
      simp only [plates, List.mem_cons, List.not_mem_nil, or_false] at hs
      rcases hs with rfl | rfl <;> unfold WingCrossSection.create <;>
        rw [if_neg (by simp [plateSection]), if_neg (by simp [plateSection]), if_neg (by simp [plateSection])] <;> rfl
    · simp [plateMovement, Function.comp_def]
    · exact ⟨Or.inl rfl, Or.inl rfl, Or.inl rfl⟩
    · intro m' hm'
      simp only [plateMovement, List.mem_map] at hm'
      obtain ⟨s, _, rfl⟩ := hm'
      exact ⟨Or.inl rfl, Or.inl rfl, Or.inl rfl⟩
    · intro m' hm'
      simp only [plateMovement, List.getElem?_map, Option.map_eq_some_iff] at hm'
      obtain ⟨s, _, rfl⟩ := hm'
      exact ⟨rfl, rfl, rfl, rfl⟩
  refine ⟨w, hw, hp, ⟨⟨Or.inl rfl, Or.inl rfl, Or.inl rfl⟩, ?_⟩, ?_⟩
  · intro m' hm'
    simp only [plateMovement, List.mem_map] at hm'
    obtain ⟨s, _, rfl⟩ := hm'
    exact ⟨Or.inl rfl, Or.inl rfl, Or.inl rfl⟩
  · exact ⟨hp.base, hp.fresh, hp.bases, ⟨Or.inl rfl, Or.inl rfl, Or.inl rfl⟩, hp.sectionSpacings, hp.root⟩

theorem wings {w : Wing} (hw : Wing.create (plates 1) ⟨0, 0, 0⟩ ⟨0, 1, 0⟩ true ⟨1, 0, 0⟩ 1 "uniform" = .ok w)
    (hp : (plateMovement w).Proper (plates 1)) (hs : (plateMovement w).Still)
    (A P : ℝ) (n : ℕ) (hn : 0 < n) (dt : ℝ) {ws : List Wing} (h : (heave w A P).generate n dt = .ok ws) :
    ∀ k < n, ∃ wk, ws[k]? = some wk ∧
      Wing.create (plates 1) ⟨0, 0, (oscillatingSinspace A P 0 n dt).getD k 0⟩ ⟨0, 1, 0⟩ true ⟨1, 0, 0⟩ 1 "uniform"
        = .ok wk := by
  obtain ⟨xs, ys, zs, H, h1, h2, h3, h4, _, hk⟩ := WingMovement.generate_ok h
  obtain ⟨hspec, _⟩ := Wing.create_ok _ _ _ _ _ _ _ _ hw
  have hH : H = (plates 1).map (List.replicate n) := by
    refine (histories_still hp hs n hn dt h4).mpr ?_
    intro q hq
    simp [plates] at hq
    subst hq
    right
    simp [plateSection]
  have still : ∀ {l}, ({} : Oscillation).values 0 n dt = .ok l → l = List.replicate n 0 := by
    intro l hl
    have hv : ({} : Oscillation).Valid := Or.inl rfl
    rw [hv.values_still (Or.inl rfl) 0 n dt] at hl
    exact (Except.ok.inj hl).symm
  have hx : xs = List.replicate n 0 := by
    change ({} : Oscillation).values w.spec.leadingEdge.x n dt = .ok xs at h1
    rw [hspec] at h1
    exact still h1
  have hy : ys = List.replicate n 0 := by
    change ({} : Oscillation).values w.spec.leadingEdge.y n dt = .ok ys at h2
    rw [hspec] at h2
    exact still h2
  have hz : zs = oscillatingSinspace A P 0 n dt := by
    change ({ amplitude := A, period := P } : Oscillation).values w.spec.leadingEdge.z n dt = .ok zs at h3
    rw [hspec] at h3
    simp [Oscillation.values] at h3
    exact h3.symm
  intro k hkn
  obtain ⟨wk, e1, e2⟩ := hk k hkn
  rw [hH, column_map_replicate _ _ _ hkn] at e2
  have e3 : (heave w A P).base.spec = w.spec := rfl
  rw [e3, hspec] at e2
  have x0 : xs.getD k 0 = 0 := by rw [hx, List.getD_eq_getElem?_getD]; simp [hkn]
  have y0 : ys.getD k 0 = 0 := by rw [hy, List.getD_eq_getElem?_getD]; simp [hkn]
  rw [x0, y0, hz] at e2
  exact ⟨wk, e1, e2⟩

theorem symmetric {w : Wing} (hw : Wing.create (plates 1) ⟨0, 0, 0⟩ ⟨0, 1, 0⟩ true ⟨1, 0, 0⟩ 1 "uniform" = .ok w)
    (A P : ℝ) : (heave w A P).Symmetric := by
  obtain ⟨hspec, hacc⟩ := Wing.create_ok _ _ _ _ _ _ _ _ hw
  have e1 : (heave w A P).base.spec.leadingEdge.y = 0 := by
    show w.spec.leadingEdge.y = 0
    rw [hspec]
  have e2 : (heave w A P).base.spec.symmetric = true := by
    show w.spec.symmetric = true
    rw [hspec]
  refine ⟨e1, Or.inl rfl, ?_⟩
  rw [if_pos e2]
  refine ⟨0, 1 / 2, "symmetric", Or.inl rfl, ?_⟩
  intro s hs
  simp only [heave, plateMovement, hacc.stored, withChordwise, plates, List.map_cons, List.map_nil, List.mem_cons,
    List.not_mem_nil, or_false] at hs
  rcases hs with rfl | rfl <;> simp [plateSection]

theorem movement_of (A P : ℝ) : ∃ am : AirplaneMovement, am.Symmetric ∧
    ∀ (n : ℕ) (_ : 0 < n) (dt : ℝ) (base : OperatingPoint) (only : Bool),
    ∃ p, study [am] { base := base } (some n) none none (some dt) only = .ok p ∧ p.maxPeriod = max 0 P ∧
      Study p n dt (fun k => (oscillatingSinspace A P 0 n dt).getD k 0)
        { density := base.density, velocity := base.velocity, alpha := base.alpha, beta := base.beta } := by
  obtain ⟨w, hw, hp, hs, hh⟩ := proper A P
  obtain ⟨a, ha⟩ : ∃ a, Airplane.create [w] = .ok a := ⟨_, rfl⟩
  have har : a.xyzRef.y = 0 := by
    simp only [Airplane.create, Except.ok.injEq] at ha
    rw [← ha]; rfl
  set am : AirplaneMovement := { base := a, wingMovements := [heave w A P] } with ham
  refine ⟨am, ⟨har, Or.inl rfl, by simpa [ham] using symmetric hw A P⟩, ?_⟩
  intro n hn dt base only
  set om : OperatingPointMovement := { base := base } with hom
  obtain ⟨mv, e1, e2, e3⟩ := C31_movement_accepted [am] om (by simp) (by
      intro am' ham' wm hwm
      simp at ham'; subst ham'
      simp [am] at hwm; subst hwm
      exact ⟨_, hh⟩) (by
      intro am' ham'
      simp at ham'; subst ham'
      exact ⟨Or.inl rfl, Or.inl rfl, Or.inl rfl⟩) (Or.inl rfl) n hn dt
  have hsec := hp.sections.1
  have hP : movementMaxPeriod [am] om = .ok (max 0 P) := by
    have hw' : (heave w A P).maxPeriod = .ok (max 0 P) := by
      have hsec' : w.sections = withChordwise ⟨1, 0, 0⟩ (plates 1) := hsec
      simp [WingMovement.maxPeriod, hsec', withChordwise, plates, pyMax, WingCrossSectionMovement.maxPeriod,
        bind, Except.bind, pure, Except.pure, heave, plateMovement]
    have ha' : am.maxPeriod = .ok (max 0 P) := by
      simp [AirplaneMovement.maxPeriod, am, hw', pyMax, bind, Except.bind, pure, Except.pure]
    simp [movementMaxPeriod, ha', pyMax, bind, Except.bind, pure, Except.pure, OperatingPointMovement.maxPeriod, om]
  obtain ⟨p, u1, u2, u3, u4, u5, u6⟩ := C31_steady_problems [am] om _ _ _ _ mv e1 (max 0 P) hP only
  obtain ⟨_, _, _, g1, g2, _, _⟩ := Movement.create_ok e1
  refine ⟨p, bind_ok.mpr ⟨mv, e1, u1⟩, u4, ⟨_, _, _, _, _, _, mv, only, _, e1, u1, .inl rfl⟩, by rw [u2, e2],
    by rw [u3, e3], fun k hk => ⟨?_, ?_⟩⟩
  · obtain ⟨sp, s1, s2, s3⟩ := u6 k (by omega)
    have hops := C29_static_operating_point_partial om (Or.inl rfl) (Or.inl rfl) mv.numSteps mv.deltaTime
    rw [hops] at g2
    rw [← Except.ok.inj g2, List.getElem?_replicate, if_pos (by omega)] at s3
    simp only [UnsteadyProblem.operatingPointAt, s1, Option.map_some, Option.getD_some]
    rw [← Option.some.inj s3]
  · obtain ⟨sp, s1, s2, s3⟩ := u6 k (by omega)
    have hf := mapM_forall₂.mp g1
    obtain ⟨hist, tail, hgen, ht, hmv⟩ := List.forall₂_cons_left_iff.mp hf
    obtain rfl := List.forall₂_nil_left_iff.mp ht
    rw [hmv] at s2
    obtain ⟨ak, tail', hak, ht', hsp⟩ := List.forall₂_cons_left_iff.mp s2
    obtain rfl := List.forall₂_nil_left_iff.mp ht'
    obtain ⟨_, _, _, ws, _, _, _, hws, _, hall⟩ := AirplaneMovement.generate_ok hgen
    obtain ⟨wl, wtail, hwl, hwt, hws'⟩ := List.forall₂_cons_left_iff.mp (mapM_forall₂.mp hws)
    obtain rfl := List.forall₂_nil_left_iff.mp hwt
    subst hws'
    rw [e2, e3] at hwl
    obtain ⟨wk, w1, w2⟩ := wings hw hp hs A P n hn dt hwl k hk
    obtain ⟨n1, n2, P', Q', n3, n4, n5⟩ := wing_panels _ w2
    obtain ⟨ak', a1, a2⟩ := hall k (by omega)
    rw [hak] at a1
    obtain rfl := Option.some.inj a1
    simp only [List.filterMap_cons, w1, List.filterMap_nil, Airplane.create, Except.ok.injEq] at a2
    refine ⟨ak, wk, P', Q', ?_, ?_, n1, n3, n2, n4, n5⟩
    · simp [UnsteadyProblem.airplanesAt, s1, hsp]
    · rw [← a2]

theorem movement (A P : ℝ) (n : ℕ) (hn : 0 < n) (dt : ℝ) (base : OperatingPoint) (only : Bool) :
    ∃ am : AirplaneMovement, am.Symmetric ∧
    ∃ p, study [am] { base := base } (some n) none none (some dt) only = .ok p ∧
      Study p n dt (fun k => (oscillatingSinspace A P 0 n dt).getD k 0)
        { density := base.density, velocity := base.velocity, alpha := base.alpha, beta := base.beta } := by
  obtain ⟨am, h1, h2⟩ := movement_of A P
  obtain ⟨p, h3, -, h4⟩ := h2 n hn dt base only
  exact ⟨am, h1, p, h3, h4⟩

variable {p : UnsteadyProblem} {n : ℕ} {dt : ℝ} {z : ℕ → ℝ} {op : OperatingPoint}

theorem Study.chordwise (h : Study p n dt z op) : p.Chordwise := by
  intro w wing hw
  by_cases hk : w.step < n
  · obtain ⟨_, a, W, P, Q, h1, h2, h3, h4, h5, -⟩ := h.step _ hk
    unfold UnsteadyProblem.wing? at hw
    rw [h1] at hw
    rw [Option.bind_eq_some_iff] at hw
    obtain ⟨b, hb, hw⟩ := hw
    have hb' := List.mem_of_getElem? hb
    simp only [List.mem_singleton] at hb'
    subst hb'
    rw [h2] at hw
    have := List.mem_of_getElem? hw
    simp only [List.mem_singleton] at this
    subst this
    omega
  · have hl := h.made.regular.steps
    have : p.airplanesAt w.step = [] := by
      have hnone : p.steadyProblems[w.step]? = none := by
        rw [List.getElem?_eq_none_iff, hl, h.steps]; omega
      simp [UnsteadyProblem.airplanesAt, hnone]
    simp [UnsteadyProblem.wing?, this] at hw

theorem Study.create (h : Study p n dt z op) (hn : 0 < n) : ∃ s, UnsteadySolver.create p = .ok s := by
  have hl := h.made.regular.steps
  rw [h.steps] at hl
  unfold UnsteadySolver.create
  cases hsp : p.steadyProblems with
  | nil => rw [hsp] at hl; simp at hl; omega
  | cons a l => exact ⟨_, rfl⟩

/-- The unsteady solver solves two such panels side by side, of one wing or of two, in a flow along the chord. -/
theorem run_of_strips {dt : ℝ} (hmade : p.Made) (hdt' : p.deltaTime = dt) (hdt : 0 ≤ dt) (hv : 0 ≤ op.velocity)
    (hα : op.alpha = 0) (hβ : op.beta = 0)
    (hstep : ∀ k < p.numSteps, p.operatingPointAt k = op ∧ ∃ r₀ r₁ P Q, panelRefs (p.airplanesAt k) = [r₀, r₁] ∧
      panelAt (p.airplanesAt k) r₀ = some P ∧ panelAt (p.airplanesAt k) r₁ = some Q ∧ IsStrip (z k) (-1) 0 P ∧
      IsStrip (z k) 0 1 Q) {s : UnsteadySolver} (hs : Reached p s) (pres sl : Bool) : ∃ s', s.run pres sl = .ok s' := by
  refine C40_run_finishes hmade hs ?_ pres sl
  intro k hk b hb
  obtain ⟨ho, r₀, r₁, P, Q, hr, hp, hq, hP, hQ⟩ := hstep k hk
  rw [hr] at hb
  obtain ⟨b0, b1, rfl⟩ := List.length_eq_two.mp hb
  have hfree : op.freestreamVelocity = ⟨op.velocity, 0, 0⟩ := by
    unfold OperatingPoint.freestreamVelocity
    rw [C01_freestream_direction, hα, hβ]
    ext <;> simp
  have hc : 0 ≤ 0.25 * (dt * op.velocity) := by positivity
  set c := 1 / 2 + 0.25 * (dt * op.velocity) with hcdef
  have hc' : 1 / 2 ≤ c := by linarith
  have back : ∀ (r : PanelRef) (y₀ y₁ : ℝ) (C : Panel), panelAt (p.airplanesAt k) r = some C → IsStrip (z k) y₀ y₁ C →
      backLeftVertex (p.airplanesAt k) op.freestreamVelocity dt r = ⟨3 / 4 + c, y₀, z k⟩ ∧
      backRightVertex (p.airplanesAt k) op.freestreamVelocity dt r = ⟨3 / 4 + c, y₁, z k⟩ := by
    intro r y₀ y₁ C hC hS
    have hg := geometryOf_eq hC
    obtain ⟨-, g2, g3⟩ := hS.points
    constructor
    · unfold backLeftVertex
      simp only [hg, hS.trailing, if_true, g3, hfree]
      ext <;> simp [hS.frontLeft, hS.backLeft, hcdef]
      ring
    · unfold backRightVertex
      simp only [hg, hS.trailing, if_true, g2, hfree]
      ext <;> simp [hS.frontRight, hS.backRight, hcdef]
      ring
  have hz : ∀ v : V3, v.dot ⟨0, 0, 1⟩ = v.z := by intro v; simp [V3.dot]
  have entry : ∀ (r : PanelRef) (y₀ y₁ y : ℝ) (C : Panel), panelAt (p.airplanesAt k) r = some C →
      IsStrip (z k) y₀ y₁ C → y₀ + 1 ≤ y₁ → 1 / 4 ≤ (y₀ - y) ^ 2 → 1 / 4 ≤ (y₁ - y) ^ 2 →
      (unitRing p k r ⟨3 / 4, y, z k⟩).z = 1 / (4 * π) * (G c (y₁ - y) - G c (y₀ - y)) := by
    intro r y₀ y₁ y C hC hS hy hy0 hy1
    rw [← ring_z (3 / 4) y (z k) c (y₀ - y) (y₁ - y) hc' hy0 hy1 (by linarith)]
    obtain ⟨b1, b2⟩ := back r y₀ y₁ C hC hS
    obtain ⟨-, g2, g3⟩ := hS.points
    have hg := geometryOf_eq hC
    unfold unitRing boundRing panelRing
    rw [ho, hdt']
    simp only [RingVortex.mk', b1, b2, hg, g2, g3]
    have e : (3 / 4 : ℝ) + -(1 / 2) = 1 / 4 := by norm_num
    rw [e, add_sub_cancel, add_sub_cancel]
  have hm : wingMatrix p k = [[1 / (4 * π) * (2 * G c (1 / 2)), 1 / (4 * π) * (G c (3 / 2) - G c (1 / 2))],
      [1 / (4 * π) * (G c (3 / 2) - G c (1 / 2)), 1 / (4 * π) * (2 * G c (1 / 2))]] := by
    unfold wingMatrix
    rw [hr]
    simp only [List.map_cons, List.map_nil, geometryOf_eq hp, geometryOf_eq hq, hP.points.1, hQ.points.1,
      hP.normal (by norm_num), hQ.normal (by norm_num), hz]
    rw [entry _ _ _ _ _ hp hP (by norm_num) (by norm_num) (by norm_num),
      entry _ _ _ _ _ hq hQ (by norm_num) (by norm_num) (by norm_num),
      entry _ _ _ _ _ hp hP (by norm_num) (by norm_num) (by norm_num),
      entry _ _ _ _ _ hq hQ (by norm_num) (by norm_num) (by norm_num)]
    have e1 : (0 : ℝ) - (-1 + 0) / 2 = 1 / 2 := by norm_num
    have e2 : (-1 : ℝ) - (-1 + 0) / 2 = -(1 / 2) := by norm_num
    have e3 : (1 : ℝ) - (-1 + 0) / 2 = 3 / 2 := by norm_num
    have e4 : (0 : ℝ) - (0 + 1) / 2 = -(1 / 2) := by norm_num
    have e5 : (-1 : ℝ) - (0 + 1) / 2 = -(3 / 2) := by norm_num
    have e6 : (1 : ℝ) - (0 + 1) / 2 = 1 / 2 := by norm_num
    rw [e1, e2, e3, e4, e5, e6, G_neg, G_neg]
    simp only [List.cons.injEq, and_true]
    refine ⟨?_, ?_, ?_⟩ <;> ring
  rw [hm]
  refine ⟨_, TwoPanels.linalgSolve_two _ _ _ _ _ _ ?_⟩
  have g1 := G_pos hc' (s := 1 / 2) (by norm_num)
  have g2 := G_pos hc' (s := 3 / 2) (by norm_num)
  have g3 := G_anti hc' (s := 1 / 2) (t := 3 / 2) (by norm_num) (by norm_num)
  have hπ : 0 < 1 / (4 * π) := by positivity
  have : 0 < (1 / (4 * π)) ^ 2 * ((G c (1 / 2) + G c (3 / 2)) * (3 * G c (1 / 2) - G c (3 / 2))) := by
    have : 0 < 3 * G c (1 / 2) - G c (3 / 2) := by linarith
    positivity
  intro hcon
  refine this.ne' ?_
  linear_combination hcon

/-- The unsteady solver solves the symmetric wing in a flow along the chord. -/
theorem Study.run (h : Study p n dt z op) (hdt : 0 ≤ dt) (hv : 0 ≤ op.velocity) (hα : op.alpha = 0) (hβ : op.beta = 0)
    {s : UnsteadySolver} (hs : Reached p s) (pres sl : Bool) : ∃ s', s.run pres sl = .ok s' := by
  refine run_of_strips h.made h.dt hdt hv hα hβ (z := z) ?_ hs pres sl
  intro k hk
  rw [h.steps] at hk
  obtain ⟨ho, a, w, P, Q, h1, h2, h3, h4, h5, hP, hQ⟩ := h.step k hk
  refine ⟨ho, ⟨0, 0, 0, 0⟩, ⟨0, 0, 0, 1⟩, P, Q, ?_, ?_, ?_, hP, hQ⟩
  · simp [panelRefs, airplaneRefs, h1, h2, h4, List.zipIdx, List.range_succ]
  · simp [panelAt, wingAt, h1, h2, h4]
  · simp [panelAt, wingAt, h1, h2, h4]

end SymmetricPlate

end Ptera
