import Verif.Spec.UpsideDown
import Verif.Props.Attitude
import Verif.Props.MirrorRuns
import Verif.Lemmas.MirroredRuns

/-! Helper lemmas: airplanes upside down are images under the reflection in the plane `z = 0`. -/

namespace Ptera

open List UnsteadySolver

/-- The matrix of the reflection in the plane `z = 0`. -/
def inversionMatrix : M3 := ⟨⟨1, 0, 0⟩, ⟨0, 1, 0⟩, ⟨0, 0, -1⟩⟩

theorem inversionMatrix_mulVec (v : V3) : inversionMatrix.mulVec v = inverted v := by
  ext <;> simp [inversionMatrix, M3.mulVec, V3.dot, inverted]

theorem inversionMatrix_ortho : inversionMatrix.IsOrtho := by
  unfold M3.IsOrtho
  ext <;> simp [inversionMatrix, M3.mul, M3.transpose, M3.one, M3.mulVec, V3.dot]

theorem inversionMatrix_det : inversionMatrix.det = -1 := by simp [inversionMatrix, M3.det, V3.dot, V3.cross]

theorem inverted_inverted (v : V3) : inverted (inverted v) = v := by ext <;> simp [inverted]

theorem inversion_rotation (op : OperatingPoint) :
    ({ op with alpha := -op.alpha } : OperatingPoint).rotationWindToGeometry.transpose.mul inversionMatrix
      = inversionMatrix.mul op.rotationWindToGeometry.transpose := by
  have hr : radians (-op.alpha) = -radians op.alpha := by unfold radians; ring
  simp only [OperatingPoint.rotationWindToGeometry, M3.mul_one, OperatingPoint.alphaRotation,
    OperatingPoint.betaRotation, hr, Real.cos_neg, Real.sin_neg]
  ext <;> simp [M3.mul, M3.transpose, M3.mulVec, inversionMatrix, OperatingPoint.axesFlip, V3.dot]

theorem inversion_direction (op : OperatingPoint) :
    ({ op with alpha := -op.alpha } : OperatingPoint).freestreamDirection
      = inversionMatrix.mulVec op.freestreamDirection := by
  have hr : radians (-op.alpha) = -radians op.alpha := by unfold radians; ring
  simp only [OperatingPoint.freestreamDirection, OperatingPoint.rotationWindToGeometry, M3.mul_one,
    OperatingPoint.alphaRotation, OperatingPoint.betaRotation, hr, Real.cos_neg, Real.sin_neg]
  ext <;> simp [M3.mul, M3.transpose, M3.mulVec, inversionMatrix, OperatingPoint.axesFlip, V3.dot]

theorem SimilarAirplanes.of_inverted {as as' : List Airplane} (h : Forall₂ Airplane.IsInverted as as') :
    SimilarAirplanes as as' inversionMatrix 0 (fun _ _ => false) id (fun _ => id) := by
  refine ⟨inversionMatrix_ortho, ?_, fun a ha => ⟨a, by rw [h.length_eq]; exact ha, rfl⟩, fun _ _ _ _ h => h⟩
  intro a A hA
  obtain ⟨A', hA', hx, -, -, -, hw⟩ := forall₂_at h a A hA
  refine ⟨A', hA', by rw [hx, inversionMatrix_mulVec, add_zero], ?_,
    fun w' h => ⟨w', by rw [hw.length_eq]; exact h, rfl⟩, fun _ _ _ _ h => h⟩
  intro w W hW
  obtain ⟨W', hW', h1, h2, h3, h4⟩ := forall₂_at hw w W hW
  refine ⟨W', hW', h1, h2, h3, ?_⟩
  intro i j p p' hp hp'
  obtain ⟨q1, q2, q3, q4⟩ := h4 i j p p' hp hp'
  simp only [IsImage, inversionMatrix_mulVec, add_zero]
  exact ⟨q1, q2, q3, q4⟩

theorem SimilarProblems.of_inverted {as as' : List Airplane} (op : OperatingPoint) (hmade : ∀ a ∈ as, a.Made)
    (hmade' : ∀ a ∈ as', a.Made) (h : Forall₂ Airplane.IsInverted as as') :
    SimilarProblems ⟨as, op⟩ ⟨as', { op with alpha := -op.alpha }⟩ inversionMatrix 0 (fun _ _ => false) 1 1 id
      (fun _ => id) :=
  { airplanes := SimilarAirplanes.of_inverted h
    made := hmade
    made' := hmade'
    nonzero := one_ne_zero
    direction := inversion_direction op
    velocity := by
      show op.velocity • _ = (1 : ℝ) • inversionMatrix.mulVec (op.velocity • op.freestreamDirection)
      rw [inversion_direction op, M3.mulVec_smul, one_smul]
    density := (_root_.one_mul _).symm }

theorem inverted_dims {as as' : List Airplane} (h : Forall₂ Airplane.IsInverted as as') (a : ℕ) (A A' : Airplane)
    (hA : as[a]? = some A) (hA' : as'[a]? = some A') : A'.sRef = A.sRef ∧ A'.cRef = A.cRef ∧ A'.bRef = A.bRef := by
  obtain ⟨B, hB, -, r1, r2, r3, -⟩ := forall₂_at h a A hA
  rw [hA', Option.some.injEq] at hB
  subst hB
  exact ⟨r1, r2, r3⟩

variable {p p' : UnsteadyProblem} {s s₁ z : UnsteadySolver} {pres sl : Bool}

theorem SimilarUnsteady.inverted (hs : SimilarUnsteady p p' inversionMatrix 0 (fun _ _ => false) 1 id (fun _ => id))
    (hn : p'.numSteps ≤ p.numSteps) (hfirst : p'.firstResultsStep = p.firstResultsStep)
    (hop : ∀ k < p.numSteps, p'.operatingPointAt k = { p.operatingPointAt k with alpha := -(p.operatingPointAt k).alpha })
    (hdims : ∀ k < p.numSteps, ∀ (a : ℕ) A A', (p.airplanesAt k)[a]? = some A → (p'.airplanesAt k)[a]? = some A' →
      A'.sRef = A.sRef ∧ A'.cRef = A.cRef ∧ A'.bRef = A.bRef)
    (hr : Reached p s) (hrun : s.run pres sl = .ok s₁) (hz : Reached p' z) (sl' : Bool) :
    ∃ z₁, z.run pres sl' = .ok z₁ ∧ ∀ k < p.numSteps, StepInverted p p' s₁ z₁ k := by
  obtain ⟨z₁, hrun'⟩ := hs.run_exists hr hrun hz hn pres sl'
  refine ⟨z₁, hrun', ?_⟩
  intro k hk
  obtain ⟨hf, hst, hw⟩ := hs.run_flow hr hrun hz hrun' k hk
  have hm := hs.made.regular.made k
  have hm' := hs.made'.regular.made k
  have ho : ∀ x : ℝ, orientation inversionMatrix false * x = -x := by
    intro x; simp [orientation, inversionMatrix_det]
  have hl := fun hfr : p.firstResultsStep ≤ (k : ℤ) => hs.run_loads (N := inversionMatrix) hr hrun hz hrun' k hk
    (by rw [hop k hk]; exact inversion_rotation _) hfr (by rw [hfirst]; exact hfr)
  refine ⟨?_, ?_, ?_, ?_⟩
  · intro q
    have := hf q
    rwa [inversionMatrix_mulVec, inversionMatrix_mulVec, add_zero] at this
  · intro r c hc
    obtain ⟨v, v', h1, h2, h3⟩ := hst r c hc
    obtain ⟨c', hc', himg⟩ := (hs.similar k hk).airplanes.shapes.similarWings.panel hm hm' hc
    rw [ho] at h3
    refine ⟨c', v, v', hc', ?_, h1, h2, h3, ?_⟩
    · simp only [IsImage, inversionMatrix_mulVec, add_zero] at himg
      exact himg
    · intro hfr
      obtain ⟨L, L', g1, g2, g3, g4, g5, g6⟩ := (hl hfr).1 r c hc
      rw [inversionMatrix_mulVec] at g3 g4 g5 g6
      rw [inversionMatrix_det] at g4 g6
      refine ⟨L, L', g1, g2, ?_, ?_, ?_, ?_⟩
      · rw [g3, one_smul]
      · rw [g4]; norm_num
      · rw [g5, one_smul]
      · rw [g6]; norm_num
  · intro c hc
    obtain ⟨w, w', h1, h2, h3, h4, h5, h6, h7, h8⟩ := hw c hc
    rw [ho] at h7
    rw [inversionMatrix_mulVec, add_zero] at h3 h4 h5 h6
    exact ⟨(hs.motion.wings.places_perm hk).mem_iff.mpr (List.mem_map_of_mem hc), w, w', h1, h2, h3, h4, h5, h6, h7, h8⟩
  · intro hfr a A hA
    obtain ⟨A', L, L', h1, h2, h3, h4, h5, ⟨a1, a2⟩, b1, b2⟩ := (hl hfr).2 a A hA
    rw [inversionMatrix_mulVec] at h4 h5
    rw [inversionMatrix_det] at h5
    have h4' : L'.forceWind = Ptera.inverted L.forceWind := by rw [h4]; norm_num
    have h5' : L'.momentWind = -Ptera.inverted L.momentWind := by rw [h5]; norm_num
    obtain ⟨r1, r2, r3⟩ := hdims k hk a A A' hA h1
    simp only [r1, r2, r3, h4', h5', hop k hk] at b1 b2
    refine ⟨L, L', h2, h3, h4', h5', ?_, ?_⟩
    · rw [b1, a1]
      ext <;> simp [Ptera.inverted, neg_div]
    · rw [b2, a2]
      ext <;> simp [Ptera.inverted, neg_div]

end Ptera
