import Verif.Lemmas.PlateSolve
import Verif.Lemmas.SteadyRuns

/-! A flat rectangular wing of chord 1 with two panels of the widths 2 and 1, in a flow from straight below: the ring
solver's strengths and the velocity at the middle of the filament between the panels. Witness for C36. -/

namespace Ptera

open Real

namespace TwoPanels

/-- Distance from a point at three quarters of the chord to a corner of a ring. -/
noncomputable def R (s : ℝ) : ℝ := √(1 / 4 + s ^ 2)

theorem R_pos (s : ℝ) : 0 < R s := Real.sqrt_pos.mpr (by positivity)

theorem R_sq (s : ℝ) : R s ^ 2 = 1 / 4 + s ^ 2 := Real.sq_sqrt (by positivity)

theorem norm_half (x s : ℝ) (hx : x ^ 2 = 1 / 4) : (⟨x, s, 0⟩ : V3).norm = R s := by
  simp only [V3.norm, V3.dot, R]
  congr 1
  nlinarith

theorem half_le_R (s : ℝ) : 1 / 2 ≤ R s := by
  unfold R
  apply Real.le_sqrt_of_sq_le
  nlinarith [sq_nonneg s]

theorem eps_small : eps ≤ 1 / 16 := by unfold eps; norm_num

/-- A chordwise filament away from the point. -/
theorem side_entry (Y y : ℝ) (h : 1 / 4 ≤ (Y - y) ^ 2) :
    (expandedEntry 0 ⟨⟨5 / 4, Y, 0⟩, ⟨1 / 4, Y, 0⟩, 1, 0⟩ ⟨3 / 4, y, 0⟩).z = 1 / (4 * π) * (1 / ((Y - y) * R (Y - y))) := by
  set s := Y - y with hs
  have e1 : (⟨5 / 4, Y, 0⟩ : V3) - ⟨3 / 4, y, 0⟩ = ⟨1 / 2, s, 0⟩ := by ext <;> simp [hs]; norm_num
  have e2 : (⟨1 / 4, Y, 0⟩ : V3) - ⟨3 / 4, y, 0⟩ = ⟨-1 / 2, s, 0⟩ := by ext <;> simp [hs]; norm_num
  have e3 : (⟨1 / 2, s, 0⟩ : V3).cross ⟨-1 / 2, s, 0⟩ = ⟨0, 0, s⟩ := by ext <;> simp [V3.cross]; ring
  have e4 : (⟨0, 0, s⟩ : V3).norm ^ 2 = s ^ 2 := by rw [V3.norm_sq]; simp [V3.dot]; ring
  have e5 : (⟨1 / 2, s, 0⟩ : V3).dot ⟨-1 / 2, s, 0⟩ = s ^ 2 - 1 / 4 := by simp [V3.dot]; ring
  have n1 := norm_half (1 / 2) s (by norm_num)
  have n2 := norm_half (-1 / 2) s (by norm_num)
  have hR := R_pos s
  have hne : s ≠ 0 := by intro h0; rw [h0] at h; norm_num at h
  have hR2 := R_sq s
  have hpi := Real.pi_pos
  rw [expandedEntry_eq, if_neg]
  · simp only [kernelCoeff, coreRadius, e1, e2, e3, e4, e5, n1, n2, mul_zero, Real.sqrt_zero]
    simp only [V3.smul_z]
    field_simp
    nlinarith
  · unfold Cutoff
    simp only [e1, e2, e3, e4, n1, n2]
    push Not
    have := eps_small
    have := half_le_R s
    refine ⟨by linarith, by linarith, by linarith⟩

/-- A chordwise filament through the point. -/
theorem side_entry_zero (y : ℝ) :
    (expandedEntry 0 ⟨⟨5 / 4, y, 0⟩, ⟨1 / 4, y, 0⟩, 1, 0⟩ ⟨3 / 4, y, 0⟩).z = 0 := by
  rw [expandedEntry_eq, if_pos]
  · rfl
  · right; right
    have : ((⟨5 / 4, y, 0⟩ : V3) - ⟨3 / 4, y, 0⟩).cross (⟨1 / 4, y, 0⟩ - ⟨3 / 4, y, 0⟩) = 0 := by
      ext <;> simp [V3.cross]
    simp only [this]
    rw [V3.norm_sq]
    have := eps_pos
    simpa [V3.dot] using this

/-- The front filament of a ring. -/
theorem front_entry (Y₀ Y₁ y : ℝ) (h : Y₀ + 1 ≤ Y₁) :
    (expandedEntry 0 ⟨⟨1 / 4, Y₁, 0⟩, ⟨1 / 4, Y₀, 0⟩, 1, 0⟩ ⟨3 / 4, y, 0⟩).z
      = 1 / (4 * π) * (2 * ((Y₁ - y) / R (Y₁ - y) - (Y₀ - y) / R (Y₀ - y))) := by
  set s := Y₀ - y with hs
  set t := Y₁ - y with ht
  have hst : 1 ≤ t - s := by rw [hs, ht]; linarith
  have e1 : (⟨1 / 4, Y₁, 0⟩ : V3) - ⟨3 / 4, y, 0⟩ = ⟨-1 / 2, t, 0⟩ := by ext <;> simp [ht]; norm_num
  have e2 : (⟨1 / 4, Y₀, 0⟩ : V3) - ⟨3 / 4, y, 0⟩ = ⟨-1 / 2, s, 0⟩ := by ext <;> simp [hs]; norm_num
  have e3 : (⟨-1 / 2, t, 0⟩ : V3).cross ⟨-1 / 2, s, 0⟩ = ⟨0, 0, (t - s) / 2⟩ := by ext <;> simp [V3.cross]; ring
  have e4 : (⟨0, 0, (t - s) / 2⟩ : V3).norm ^ 2 = (t - s) ^ 2 / 4 := by rw [V3.norm_sq]; simp [V3.dot]; ring
  have e5 : (⟨-1 / 2, t, 0⟩ : V3).dot ⟨-1 / 2, s, 0⟩ = s * t + 1 / 4 := by simp [V3.dot]; ring
  have n1 := norm_half (-1 / 2) s (by norm_num)
  have n2 := norm_half (-1 / 2) t (by norm_num)
  have hR := R_pos s
  have hT := R_pos t
  have hne : t - s ≠ 0 := by intro h0; rw [h0] at hst; norm_num at hst
  have hR2 := R_sq s
  have hT2 := R_sq t
  have hpi := Real.pi_pos
  rw [expandedEntry_eq, if_neg]
  · simp only [kernelCoeff, coreRadius, e1, e2, e3, e4, e5, n1, n2, mul_zero, Real.sqrt_zero]
    simp only [V3.smul_z]
    have key : (R t + R s) * (R t * R s - (s * t + 1 / 4)) = (t - s) * (R s * t - R t * s) := by
      linear_combination R s * hT2 + R t * hR2
    rw [show (1 : ℝ) / (4 * π) * (R t + R s) * (R t * R s - (s * t + 1 / 4))
      = 1 / (4 * π) * ((R t + R s) * (R t * R s - (s * t + 1 / 4))) by ring, key]
    field_simp
    ring
  · unfold Cutoff
    simp only [e1, e2, e3, e4, n1, n2]
    push Not
    have := eps_small
    have := half_le_R s
    have := half_le_R t
    refine ⟨by linarith, by linarith, by nlinarith⟩

/-- A vertical filament. -/
theorem vertical_entry (A : V3) (c : ℝ) (p : V3) : (expandedEntry 0 ⟨A + c • ⟨0, 0, 1⟩, A, 1, 0⟩ p).z = 0 := by
  rw [expandedEntry_eq]
  split
  · rfl
  · simp [V3.cross]
    right
    ring

/-! ## A ring with its trailing horseshoe -/

/-- Vertical velocity, times `4 π`, due to the part of the vortex system on one side of a chordwise line. -/
noncomputable def H (s : ℝ) : ℝ := 2 * (s / R s) + 1 / (s * R s)

theorem side_entry' (Y y : ℝ) (h : Y = y ∨ 1 / 4 ≤ (Y - y) ^ 2) :
    (expandedEntry 0 ⟨⟨5 / 4, Y, 0⟩, ⟨1 / 4, Y, 0⟩, 1, 0⟩ ⟨3 / 4, y, 0⟩).z = 1 / (4 * π) * (1 / ((Y - y) * R (Y - y))) := by
  rcases h with rfl | h
  · rw [side_entry_zero]; simp
  · exact side_entry Y y h

theorem reverse_z (A B p : V3) :
    (expandedEntry 0 ⟨A, B, 1, 0⟩ p).z = -(expandedEntry 0 ⟨B, A, 1, 0⟩ p).z := by
  have := congrArg V3.z (entry_reverse A B p)
  simp at this
  linarith

/-- The ring and the trailing horseshoe of a panel between the chordwise lines at `Y₀` and `Y₁`. -/
theorem system_z (Y₀ Y₁ y c : ℝ) (h : Y₀ + 1 ≤ Y₁) (h₀ : Y₀ = y ∨ 1 / 4 ≤ (Y₀ - y) ^ 2)
    (h₁ : Y₁ = y ∨ 1 / 4 ≤ (Y₁ - y) ^ 2) :
    (unitVelocity (ringLegs ⟨5 / 4, Y₁, 0⟩ ⟨1 / 4, Y₁, 0⟩ ⟨1 / 4, Y₀, 0⟩ ⟨5 / 4, Y₀, 0⟩) ⟨3 / 4, y, 0⟩).z
      + (unitVelocity (horseshoeLegs (⟨5 / 4, Y₁, 0⟩ + c • ⟨0, 0, 1⟩) ⟨5 / 4, Y₁, 0⟩ ⟨5 / 4, Y₀, 0⟩
        (⟨5 / 4, Y₀, 0⟩ + c • ⟨0, 0, 1⟩)) ⟨3 / 4, y, 0⟩).z = 1 / (4 * π) * (H (Y₁ - y) - H (Y₀ - y)) := by
  unfold unitVelocity ringLegs horseshoeLegs
  simp only [List.map_cons, List.map_nil, List.sum_cons, List.sum_nil, add_zero, V3.add_z]
  rw [side_entry' Y₁ y h₁, front_entry Y₀ Y₁ y h, reverse_z ⟨1 / 4, Y₀, 0⟩, side_entry' Y₀ y h₀,
    reverse_z ⟨5 / 4, Y₀, 0⟩ ⟨5 / 4, Y₁, 0⟩, vertical_entry, reverse_z ⟨5 / 4, Y₀, 0⟩, vertical_entry]
  unfold H
  ring

/-! ## The wing -/

theorem airplane : ∃ a : Airplane, a.Made ∧ panelRefs [a] = [⟨0, 0, 0, 0⟩, ⟨0, 0, 0, 1⟩] ∧
    panelAt [a] ⟨0, 0, 0, 0⟩ = some (stripPanel 0 1 0 2 2 0) ∧
    panelAt [a] ⟨0, 0, 0, 1⟩ = some (stripPanel 0 1 2 3 2 1) ∧
    ∃ w, wingAt [a] ⟨0, 0, 0, 0⟩ = some w ∧ w.numSpanwisePanels = 2 ∧ w.panels.length = 1 ∧ w.span = 3 := by
  obtain ⟨w, hw, hmade, hn, hl, hspan, hcell⟩ := strip_wing 0 1 [0, 2, 3] (by simp) rfl
  refine ⟨{ wings := [w], xyzRef := 0, weight := 0, sRef := 1, cRef := 1, bRef := 1
            numPanels := ([w].map (·.numPanels)).sum },
    ⟨[w], 0, 0, some 1, some 1, some 1, rfl, by simpa using hmade⟩, ?_, ?_, ?_, w, by simp [wingAt], by simpa using hn,
    hl, by simpa using hspan⟩
  · have h2 := (C18_wing_counts _ _ _ _ _ _ _ w hw).2.1
    obtain ⟨row, hrow⟩ := List.length_eq_one_iff.mp hl
    have hr : row.length = 2 := by
      have := h2 row (by rw [hrow]; simp)
      rw [this, hn]
      rfl
    simp [panelRefs, airplaneRefs, hrow, hr, List.zipIdx, List.range_succ]
  · have := hcell 0 0 2 rfl rfl
    unfold cell at this
    simpa [panelAt, wingAt] using this
  · have := hcell 1 2 3 rfl rfl
    unfold cell at this
    simpa [panelAt, wingAt] using this

theorem strip_normal (y₀ y₁ : ℝ) (n j : ℕ) (h : y₀ < y₁) : (stripPanel 0 1 y₀ y₁ n j).unitNormal = ⟨0, 0, 1⟩ := by
  have hc : (stripPanel 0 1 y₀ y₁ n j).crossDiagonals = ⟨0, 0, 2 * (y₁ - y₀)⟩ := by
    ext <;> simp [Panel.crossDiagonals, Panel.firstDiagonal, Panel.secondDiagonal, stripPanel, V3.cross]
    ring
  have hn : (⟨0, 0, 2 * (y₁ - y₀)⟩ : V3).norm = 2 * (y₁ - y₀) := by
    simp only [V3.norm, V3.dot]
    rw [show (0 * 0 + 0 * 0 + 2 * (y₁ - y₀) * (2 * (y₁ - y₀)) : ℝ) = (2 * (y₁ - y₀)) ^ 2 by ring, Real.sqrt_sq (by linarith)]
  have hne : y₁ - y₀ ≠ 0 := by linarith
  unfold Panel.unitNormal
  rw [hc, hn]
  ext <;> simp
  field_simp

theorem strip_points (y₀ y₁ : ℝ) (n j : ℕ) :
    (stripPanel 0 1 y₀ y₁ n j).collocationPoint = ⟨3 / 4, (y₀ + y₁) / 2, 0⟩ ∧
    (stripPanel 0 1 y₀ y₁ n j).frontRightVortexVertex = ⟨1 / 4, y₁, 0⟩ ∧
    (stripPanel 0 1 y₀ y₁ n j).frontLeftVortexVertex = ⟨1 / 4, y₀, 0⟩ := by
  refine ⟨?_, ?_, ?_⟩ <;> ext <;>
    simp [Panel.collocationPoint, Panel.frontRightVortexVertex, Panel.frontLeftVortexVertex, Panel.rightLeg,
      Panel.leftLeg, stripPanel] <;> norm_num
  ring

/-- A flow from straight below. -/
noncomputable def upFlow (density : ℝ) : OperatingPoint := { density, velocity := 1, alpha := 90, beta := 0 }

theorem upFlow_direction (density : ℝ) : (upFlow density).freestreamDirection = ⟨0, 0, 1⟩ := by
  rw [C01_freestream_direction]
  have e1 : (90 : ℝ) * π / 180 = π / 2 := by ring
  ext <;> simp [upFlow, e1]

theorem upFlow_velocity (density : ℝ) : (upFlow density).freestreamVelocity = ⟨0, 0, 1⟩ := by
  unfold OperatingPoint.freestreamVelocity
  rw [upFlow_direction]
  simp [upFlow]

theorem panelUnit_z {s : RingSolver} {r : PanelRef} {y₀ y₁ : ℝ} {n j : ℕ}
    (hp : panelAt s.airplanes r = some (stripPanel 0 1 y₀ y₁ n j)) (hd : s.operatingPoint.freestreamDirection = ⟨0, 0, 1⟩)
    (y : ℝ) (h : y₀ + 1 ≤ y₁) (h₀ : y₀ = y ∨ 1 / 4 ≤ (y₀ - y) ^ 2) (h₁ : y₁ = y ∨ 1 / 4 ≤ (y₁ - y) ^ 2) :
    (s.panelUnit r ⟨3 / 4, y, 0⟩).z = 1 / (4 * π) * (H (y₁ - y) - H (y₀ - y)) := by
  obtain ⟨g1, g2, g3⟩ := strip_points y₀ y₁ n j
  have hg := geometryOf_eq hp
  have hte : (stripPanel 0 1 y₀ y₁ n j).isTrailingEdge = true := rfl
  have b1 : RingSolver.backLeftVertex s.airplanes r = ⟨5 / 4, y₀, 0⟩ := by
    unfold RingSolver.backLeftVertex
    simp only [hg, hte, if_true, g3]
    ext <;> simp [stripPanel]
    norm_num
  have b2 : RingSolver.backRightVertex s.airplanes r = ⟨5 / 4, y₁, 0⟩ := by
    unfold RingSolver.backRightVertex
    simp only [hg, hte, if_true, g2]
    ext <;> simp [stripPanel]
    norm_num
  rw [← system_z y₀ y₁ y (((wingAt s.airplanes r).map (·.span)).getD 0 * 20) h h₀ h₁]
  simp only [RingSolver.panelUnit, RingSolver.firstTrailing, RingSolver.unit, RingSolver.unitT, ringSlot,
    RingSolver.panelRing, RingVortex.mk', LineVortex.mk', hg, hte, if_true, RingSolver.trailingSlot,
    RingSolver.panelHorseshoe, HorseshoeVortex.mk', g2, g3, b1, b2, one_smul, V3.add_z, hd]

theorem linalgSolve_two (a b c d e f : ℝ) (h : a * d - b * c ≠ 0) :
    linalgSolve [[a, b], [c, d]] [e, f]
      = .ok [(e * d - b * f) / (a * d - b * c), (a * f - e * c) / (a * d - b * c)] := by
  apply linalgSolve_of_unique
  · constructor
    · rfl
    · simp [matVec]
      have h' : (a * d - b * c) * (a * d - b * c)⁻¹ = 1 := mul_inv_cancel₀ h
      constructor
      · rw [div_eq_mul_inv, div_eq_mul_inv]; linear_combination e * h'
      · rw [div_eq_mul_inv, div_eq_mul_inv]; linear_combination f * h'
  · intro y hl hm
    obtain ⟨u, v, rfl⟩ := List.length_eq_two.mp (show y.length = 2 by simpa using hl)
    simp [matVec] at hm
    obtain ⟨h1, h2⟩ := hm
    simp only [List.cons.injEq, and_true]
    constructor
    · rw [eq_div_iff h, ← h1, ← h2]; ring
    · rw [eq_div_iff h, ← h1, ← h2]; ring

/-- Bounds for the values of `H` that are needed. -/
theorem H_bounds : (424 / 100 ≤ H (1 / 2) ∧ H (1 / 2) ≤ 425 / 100) ∧ (268 / 100 ≤ H 1 ∧ H 1 ≤ 269 / 100) ∧
    (218 / 100 ≤ H 2 ∧ H 2 ≤ 219 / 100) ∧ (211 / 100 ≤ H (5 / 2) ∧ H (5 / 2) ≤ 212 / 100) := by
  have key : ∀ s lo hi : ℝ, 0 < s → 0 < lo → 0 < hi → (lo * s) ^ 2 * (1 / 4 + s ^ 2) ≤ (2 * s ^ 2 + 1) ^ 2 →
      (2 * s ^ 2 + 1) ^ 2 ≤ (hi * s) ^ 2 * (1 / 4 + s ^ 2) → lo ≤ H s ∧ H s ≤ hi := by
    intro s lo hi hs hlo hhi h1 h2
    have hR := R_pos s
    have hR2 := R_sq s
    have e : H s = (2 * s ^ 2 + 1) / (s * R s) := by unfold H; field_simp
    rw [e]
    constructor
    · rw [le_div_iff₀ (by positivity)]
      refine (sq_le_sq₀ (by positivity) (by positivity)).mp ?_
      calc (lo * (s * R s)) ^ 2 = (lo * s) ^ 2 * (1 / 4 + s ^ 2) := by rw [← hR2]; ring
        _ ≤ _ := h1
    · rw [div_le_iff₀ (by positivity)]
      refine (sq_le_sq₀ (by positivity) (by positivity)).mp ?_
      calc (2 * s ^ 2 + 1) ^ 2 ≤ (hi * s) ^ 2 * (1 / 4 + s ^ 2) := h2
        _ = _ := by rw [← hR2]; ring
  refine ⟨key _ _ _ ?_ ?_ ?_ ?_ ?_, key _ _ _ ?_ ?_ ?_ ?_ ?_, key _ _ _ ?_ ?_ ?_ ?_ ?_, key _ _ _ ?_ ?_ ?_ ?_ ?_⟩ <;>
    norm_num

theorem R_neg (s : ℝ) : R (-s) = R s := by simp [R]

theorem H_neg (s : ℝ) : H (-s) = -H s := by
  unfold H
  rw [R_neg]
  rw [neg_mul, div_neg, neg_div]
  ring

theorem H_zero : H 0 = 0 := by simp [H]

/-- Determinant of the system, times `(4 π) ^ 2`. -/
noncomputable def D : ℝ := 4 * H 1 * H (1 / 2) - (H 2 - H 1) * (H (5 / 2) - H (1 / 2))

theorem D_bounds : 43 ≤ D ∧ (2 * H (1 / 2) - H 2 + H 1) * H 2 + (2 * H 1 - H (5 / 2) + H (1 / 2)) * H 1 ≤ 42 := by
  obtain ⟨⟨a1, a2⟩, ⟨b1, b2⟩, ⟨c1, c2⟩, d1, d2⟩ := H_bounds
  unfold D
  generalize H (1 / 2) = a at *
  generalize H 1 = b at *
  generalize H 2 = c at *
  generalize H (5 / 2) = d at *
  constructor
  · have h1 : 268 / 100 * (424 / 100) ≤ b * a := mul_le_mul b1 a1 (by norm_num) (by linarith)
    have h2 : (b - c) * (a - d) ≤ 51 / 100 * (214 / 100) :=
      mul_le_mul (by linarith) (by linarith) (by linarith) (by norm_num)
    nlinarith
  · have h1 : (2 * a - c + b) * c ≤ 901 / 100 * (219 / 100) :=
      mul_le_mul (by linarith) c2 (by linarith) (by norm_num)
    have h2 : (2 * b - d + a) * b ≤ 752 / 100 * (269 / 100) :=
      mul_le_mul (by linarith) b2 (by linarith) (by norm_num)
    linarith

theorem matrix {as : List Airplane} {r₀ r₁ : PanelRef} {m₀ m₁ j₀ j₁ : ℕ} (hrefs : panelRefs as = [r₀, r₁])
    (hp : panelAt as r₀ = some (stripPanel 0 1 0 2 m₀ j₀))
    (hq : panelAt as r₁ = some (stripPanel 0 1 2 3 m₁ j₁)) {s : RingSolver} (hs : s.Unsolved)
    (ha : s.airplanes = as) (ho : s.operatingPoint = upFlow 1) :
    s.finalInfluences = [[1 / (4 * π) * (2 * H 1), 1 / (4 * π) * (H 2 - H 1)],
      [1 / (4 * π) * (H (5 / 2) - H (1 / 2)), 1 / (4 * π) * (2 * H (1 / 2))]] := by
  have hd : s.operatingPoint.freestreamDirection = ⟨0, 0, 1⟩ := by rw [ho, upFlow_direction]
  have hz : ∀ v : V3, v.dot ⟨0, 0, 1⟩ = v.z := by intro v; simp [V3.dot]
  rw [RingSolver.influences_first hs, ha, hrefs]
  simp only [List.map_cons, List.map_nil, geometryOf_eq hp, geometryOf_eq hq, (strip_points _ _ _ _).1,
    strip_normal 0 2 m₀ j₀ (by norm_num), strip_normal 2 3 m₁ j₁ (by norm_num), hz]
  rw [← ha] at hp hq
  rw [panelUnit_z hp hd _ (by norm_num) (by norm_num) (by norm_num),
    panelUnit_z hq hd _ (by norm_num) (by norm_num) (by norm_num),
    panelUnit_z hp hd _ (by norm_num) (by norm_num) (by norm_num),
    panelUnit_z hq hd _ (by norm_num) (by norm_num) (by norm_num)]
  have e1 : (2 : ℝ) - (0 + 2) / 2 = 1 := by norm_num
  have e2 : (0 : ℝ) - (0 + 2) / 2 = -1 := by norm_num
  have e3 : (3 : ℝ) - (0 + 2) / 2 = 2 := by norm_num
  have e4 : (2 : ℝ) - (2 + 3) / 2 = -(1 / 2) := by norm_num
  have e5 : (0 : ℝ) - (2 + 3) / 2 = -(5 / 2) := by norm_num
  have e6 : (3 : ℝ) - (2 + 3) / 2 = 1 / 2 := by norm_num
  rw [e1, e2, e3, e4, e5, e6, H_neg, H_neg, H_neg]
  simp only [List.cons.injEq, and_true]
  refine ⟨?_, ?_, ?_⟩ <;> ring

/-- The ring solver solves the two panels; their strengths differ, and the flow crosses the filament they share. -/
theorem run {as : List Airplane} {r₀ r₁ : PanelRef} {m₀ m₁ j₀ j₁ : ℕ} (hmade : ∀ a ∈ as, a.Made)
    (hrefs : panelRefs as = [r₀, r₁]) (hp : panelAt as r₀ = some (stripPanel 0 1 0 2 m₀ j₀))
    (hq : panelAt as r₁ = some (stripPanel 0 1 2 3 m₁ j₁)) (heap : PanelHeap) (loads : List AirplaneLoads) :
    ∃ s x y, (RingSolver.create ⟨as, upFlow 1⟩ heap loads).run = .ok s ∧ x ≠ y ∧
      (s.heap r₀).ring = some ((RingSolver.panelRing as r₀).updateStrength x) ∧
      (s.heap r₁).ring = some ((RingSolver.panelRing as r₁).updateStrength y) ∧
      ∃ v : V3, s.solutionVelocity [⟨3 / 4, 2, 0⟩] = [v] ∧ v.z ≠ 0 := by
  have hc : Counted as := counted_of_made hmade
  set S := RingSolver.create ⟨as, upFlow 1⟩ heap loads with hS
  have hu : S.Unsolved := RingSolver.create_unsolved ⟨as, upFlow 1⟩ hc heap loads
  have hd : S.operatingPoint.freestreamDirection = ⟨0, 0, 1⟩ := upFlow_direction 1
  have hfree : S.finalFreestream = [1, 1] := by
    unfold RingSolver.finalFreestream RingSolver.finalSlots
    have hv : S.freestreamVelocity = ⟨0, 0, 1⟩ := upFlow_velocity 1
    have ha : S.airplanes = as := rfl
    rw [hv, ha, hrefs]
    simp [ringSlot, geometryOf_eq hp, geometryOf_eq hq, strip_normal 0 2 m₀ j₀ (by norm_num),
      strip_normal 2 3 m₁ j₁ (by norm_num), freestreamInfluences, V3.dot]
  obtain ⟨d1, d2⟩ := D_bounds
  have hπ : (0 : ℝ) < 4 * π := by positivity
  set k : ℝ := 1 / (4 * π) with hk
  have hk0 : 0 < k := by positivity
  have hdet : k * (2 * H 1) * (k * (2 * H (1 / 2))) - k * (H 2 - H 1) * (k * (H (5 / 2) - H (1 / 2))) = k ^ 2 * D := by
    unfold D; ring
  have hne : k ^ 2 * D ≠ 0 := by positivity
  have hrun := RingSolver.run_eq S hc (by simp [S, RingSolver.create]) (by simp [S, RingSolver.create])
  rw [matrix hrefs hp hq hu rfl rfl, hfree, List.map_cons, List.map_cons, List.map_nil,
    linalgSolve_two _ _ _ _ _ _ (by rw [hdet]; exact hne), hdet] at hrun
  set x := (-1 * (k * (2 * H (1 / 2))) - k * (H 2 - H 1) * -1) / (k ^ 2 * D) with hx
  set y := (k * (2 * H 1) * -1 - -1 * (k * (H (5 / 2) - H (1 / 2)))) / (k ^ 2 * D) with hy
  have hx' : x = -(2 * H (1 / 2) - H 2 + H 1) / (k * D) := by rw [hx]; field_simp; ring
  have hy' : y = -(2 * H 1 - H (5 / 2) + H (1 / 2)) / (k * D) := by rw [hy]; field_simp; ring
  have hlen : [x, y].length = S.finalSlots.length := by
    rw [RingSolver.finalSlots_length]
    show _ = (panelRefs as).length
    rw [hrefs]; rfl
  refine ⟨_, x, y, hrun, ?_, ?_, ?_, ?_⟩
  · rw [hx', hy']
    intro hcon
    have hkd : k * D ≠ 0 := by positivity
    rw [div_left_inj' hkd] at hcon
    obtain ⟨⟨a1, a2⟩, ⟨b1, b2⟩, ⟨c1, c2⟩, g1, g2⟩ := H_bounds
    linarith
  · have : (S.solved [x, y]).calculateForces.calculateStreamlines.heap r₀ = _ :=
      (S.final_heap [x, y]).1 0 r₀ (by show (panelRefs as)[0]? = _; rw [hrefs]; rfl)
    rw [this]; rfl
  · have : (S.solved [x, y]).calculateForces.calculateStreamlines.heap r₁ = _ :=
      (S.final_heap [x, y]).1 1 r₁ (by show (panelRefs as)[1]? = _; rw [hrefs]; rfl)
    rw [this]; rfl
  · have e : (S.solved [x, y]).calculateForces.calculateStreamlines.solutionVelocity [⟨3 / 4, 2, 0⟩]
        = (S.solved [x, y]).solutionVelocity [⟨3 / 4, 2, 0⟩] := rfl
    rw [e, RingSolver.velocity_eq _ _ hlen]
    refine ⟨_, rfl, ?_⟩
    have hv := RingSolver.trailing_velocity hu [x, y] ⟨3 / 4, 2, 0⟩ hlen
    have hfr : (S.solved [x, y]).freestreamVelocity = ⟨0, 0, 1⟩ := upFlow_velocity 1
    have hfs : (S.solved [x, y]).slots = S.finalSlots := rfl
    have hst : (S.solved [x, y]).strengths = [x, y] := rfl
    have hrefs' : panelRefs S.airplanes = [r₀, r₁] := hrefs
    rw [hfr, hfs, hst]
    beta_reduce
    rw [hv, hrefs']
    simp only [List.zipWith_cons_cons, List.zipWith_nil_left, List.sum_cons, List.sum_nil, V3.add_z, V3.smul_z]
    rw [panelUnit_z (s := S) hp hd _ (by norm_num) (by norm_num) (by norm_num),
      panelUnit_z (s := S) hq hd _ (by norm_num) (by norm_num) (by norm_num)]
    have e1 : (0 : ℝ) - 2 = -2 := by norm_num
    have e3 : (3 : ℝ) - 2 = 1 := by norm_num
    rw [sub_self, e1, e3, H_zero, H_neg, ← hk, hx', hy']
    have hD0 : D ≠ 0 := by positivity
    have hfin : -(2 * H (1 / 2) - H 2 + H 1) / (k * D) * (k * (0 - -H 2))
          + (-(2 * H 1 - H (5 / 2) + H (1 / 2)) / (k * D) * (k * (H 1 - 0)) + (0 : V3).z) + 1
        = (D - ((2 * H (1 / 2) - H 2 + H 1) * H 2 + (2 * H 1 - H (5 / 2) + H (1 / 2)) * H 1)) / D := by
      simp only [V3.zero_z]
      field_simp
      ring
    rw [hfin]
    exact (div_pos (by linarith) (by linarith)).ne'

end TwoPanels

end Ptera
