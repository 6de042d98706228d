import Verif.Lemmas.Studies
import Verif.Lemmas.UnsteadyTotals
import Verif.Props.Scaling

/-! Helper lemmas: similar unsteady problems without rotation, in the same order. -/

namespace Ptera

open UnsteadySolver

variable {p p' : UnsteadyProblem} {t : V3} {κ : ℝ} {s s₁ z z₁ : UnsteadySolver} {pres sl sl' : Bool}

/-- Translated problems show corresponding steps. -/
theorem SimilarUnsteady.corresponds (hs : SimilarUnsteady p p' M3.one t (fun _ _ => false) κ id (fun _ => id))
    (hn : p'.numSteps ≤ p.numSteps) (hκ : κ ≠ 0) (hfirst : p'.firstResultsStep = p.firstResultsStep)
    (hrot : ∀ k < p.numSteps, (p'.operatingPointAt k).rotationWindToGeometry = (p.operatingPointAt k).rotationWindToGeometry)
    (hq : ∀ k < p.numSteps, 0.5 * (p'.operatingPointAt k).density * (p'.operatingPointAt k).velocity ^ 2
      = κ * (0.5 * (p.operatingPointAt k).density * (p.operatingPointAt k).velocity ^ 2))
    (hdims : ∀ k < p.numSteps, ∀ (a : ℕ) A A', (p.airplanesAt k)[a]? = some A → (p'.airplanesAt k)[a]? = some A' →
      A'.sRef = A.sRef ∧ A'.cRef = A.cRef ∧ A'.bRef = A.bRef)
    (hr : Reached p s) (hrun : s.run pres sl = .ok s₁) (hz : Reached p' z) (sl' : Bool) :
    ∃ z₁, z.run pres sl' = .ok z₁ ∧ ∀ k < p.numSteps, StepCorresponds p t κ s₁ z₁ k := by
  obtain ⟨z₁, hrun'⟩ := hs.run_exists hr hrun hz hn pres sl'
  refine ⟨z₁, hrun', ?_⟩
  intro k hk
  obtain ⟨hf, hst, hw⟩ := hs.run_flow hr hrun hz hrun' k hk
  have hdet : M3.one.det = 1 := one_isRot.2
  have hl := fun hfr : p.firstResultsStep ≤ (k : ℤ) => hs.run_loads (N := M3.one) hr hrun hz hrun' k hk
    (by rw [M3.mul_one, M3.one_mul, hrot k hk]) hfr (by rw [hfirst]; exact hfr)
  refine ⟨?_, ?_, ?_, ?_, ?_⟩
  · intro q
    have := hf q
    rwa [one_mulVec, one_mulVec] at this
  · intro r c hc
    obtain ⟨v, v', h1, h2, h3⟩ := hst r c hc
    rw [imageRef_same] at h2
    rw [orientation_one, _root_.one_mul] at h3
    exact ⟨v, v', h1, h2, h3⟩
  · intro c hc
    obtain ⟨w, w', h1, h2, h3, h4, h5, h6, h7, h8⟩ := hw c hc
    refine ⟨w, h1, ?_⟩
    have e : placeImage p (fun _ _ => false) (fun a _ => id a) (fun _ => id) k c = c := rfl
    rw [e] at h2
    rw [h2]
    simp only [Bool.false_eq_true, if_false, one_mulVec, orientation_one, _root_.one_mul] at h3 h4 h5 h6 h7
    congr 1
    cases w'
    simp only at h3 h4 h5 h6 h7 h8
    subst h3 h4 h5 h6 h7 h8
    rfl
  · intro hfr r c hc
    obtain ⟨L, L', h1, h2, h3, h4, h5, h6⟩ := (hl hfr).1 r c hc
    rw [imageRef_same] at h2
    rw [one_mulVec] at h3 h4 h5 h6
    rw [hdet, _root_.one_mul] at h4 h6
    exact ⟨L, L', h1, h2, h3, h4, h5, h6⟩
  · intro hfr a A hA
    obtain ⟨A', L, L', h1, h2, h3, h4, h5, h6, h7⟩ := (hl hfr).2 a A hA
    rw [one_mulVec] at h4 h5
    rw [hdet, _root_.one_mul] at h5
    obtain ⟨d1, d2, d3⟩ := hdims k hk a A A' hA h1
    obtain ⟨e1, e2⟩ := h6.scale h7 hκ (hq k hk) d1 d2 d3 h4 h5
    exact ⟨L, L', h2, h3, h4, h5, e1, e2⟩

end Ptera
