import Verif.Lemmas.Shifted
import Verif.Lemmas.PlateSymmetric

/-!
# Unsteady results of symmetric motion

C70: with the sideslip angle reversed, an airplane that moves symmetrically shows the mirror image of every step;
without sideslip it has no side force, no rolling and no yawing moment at any step.
-/

namespace Ptera

open List UnsteadySolver

/-- The airplanes of a study do not depend on the sideslip angle. -/
theorem study_beta {ams : List AirplaneMovement} {om : OperatingPointMovement} {ns nc nch : Option ℕ} {dt : Option ℝ}
    {only : Bool} {p : UnsteadyProblem} (h : study ams om ns nc nch dt only = .ok p) :
    ∃ p', study ams { om with base := { om.base with beta := -om.base.beta } } ns nc nch dt only = .ok p' ∧
      p'.Made ∧ p'.numSteps = p.numSteps ∧ p'.deltaTime = p.deltaTime ∧ p'.maxPeriod = p.maxPeriod ∧
      p'.firstAveragingStep = p.firstAveragingStep ∧ p'.firstResultsStep = p.firstResultsStep ∧
      ∀ k < p.numSteps, p'.airplanesAt k = p.airplanesAt k ∧
        p'.operatingPointAt k = { p.operatingPointAt k with beta := -(p.operatingPointAt k).beta } := by
  obtain ⟨p', h', hm', hn, hd, hP', ha', hf, -, H, H', O, O', rfl, hO, hk⟩ :=
    study_varied (ams' := ams) (om' := { om with base := { om.base with beta := -om.base.beta } }) h rfl
      (by cases dt <;> rfl) (fun d => by cases ns <;> rfl) (fun H H' => H' = H)
      (fun O O' => O' = O.map fun o => { o with beta := -o.beta })
      (fun n d H hH => ⟨H, hH, rfl⟩) (by
        intro n d O hO
        unfold OperatingPointMovement.generate at hO ⊢
        obtain ⟨vs, h1, h2⟩ := bind_ok.mp hO
        rw [pure_ok] at h2
        subst h2
        refine ⟨_, bind_ok.mpr ⟨vs, h1, rfl⟩, ?_⟩
        rw [List.map_map]; rfl)
  refine ⟨p', h', hm', hn, hd, hP', ha', hf, fun k hkn => ⟨?_, ?_⟩⟩
  · obtain ⟨a1, a2, -, -⟩ := hk k hkn
    apply List.ext_getElem?
    intro i
    rcases Nat.lt_or_ge i H'.length with hi | hi
    · have hx := List.getElem?_eq_getElem hi
      obtain ⟨A, hA, e⟩ := forall₂_at a1 i _ hx
      obtain ⟨A', hA', e'⟩ := forall₂_at a2 i _ hx
      rw [e, Option.some.injEq] at e'
      rw [hA, hA', e']
    · rw [List.getElem?_eq_none (by rw [← a2.length_eq]; exact hi),
        List.getElem?_eq_none (by rw [← a1.length_eq]; exact hi)]
  · obtain ⟨-, -, a3, a4⟩ := hk k hkn
    rw [hO, List.getElem?_map, a3, Option.map_some, Option.some.injEq] at a4
    exact a4.symm

/-- C70: reversing the sideslip angle of a study of airplanes that move symmetrically gives the mirror image of the
flow, the vortices, the wake and the loads at every step: the drag and lift coefficients and the pitching moment
coefficient stay, the side force, rolling and yawing moment coefficients change sign. -/
theorem C70_sideslip_reversed (ams : List AirplaneMovement) (om : OperatingPointMovement) (ns nc nch : Option ℕ)
    (dt : Option ℝ) (only : Bool) (p : UnsteadyProblem) (h : study ams om ns nc nch dt only = .ok p) (hc : p.Chordwise)
    (hsym : ∀ m ∈ ams, m.Symmetric) :
    ∃ p', study ams { om with base := { om.base with beta := -om.base.beta } } ns nc nch dt only = .ok p' ∧
      p'.numSteps = p.numSteps ∧ p'.deltaTime = p.deltaTime ∧ p'.maxPeriod = p.maxPeriod ∧
      p'.firstAveragingStep = p.firstAveragingStep ∧
      ∀ s s₁ z prescribed streamlines streamlines', Reached p s → s.run prescribed streamlines = .ok s₁ → Reached p' z →
        ∃ z₁, z.run prescribed streamlines' = .ok z₁ ∧ ∀ k < p.numSteps, StepMirrored p p' s₁ z₁ k := by
  obtain ⟨p', h', hm', hn, hd, hP', ha', hf, hk⟩ := study_beta h
  refine ⟨p', h', hn, hd, hP', ha', ?_⟩
  have hmade := (study_parts h).1
  have hs : SimilarUnsteady p p' mirrorMatrix 0 (swappedBy ams) 1 id (fun _ => id) :=
    { made := hmade, made' := hm', chordwise := hc, steps := hn.ge, time := hd
      similar := by
        intro k hkn
        exact {
          airplanes := by simp only [(hk k hkn).1]; exact (symmetric_airplanes h hsym k hkn).1
          made := hmade.regular.made k
          made' := hm'.regular.made k
          nonzero := one_ne_zero
          direction := by simp only [(hk k hkn).2]; exact mirror_direction _
          velocity := by
            simp only [(hk k hkn).2, OperatingPoint.freestreamVelocity, mirror_direction, M3.mulVec_smul, one_smul]
          density := by simp only [(hk k hkn).2, _root_.one_mul] }
      nu := by intro k hkn; rw [(hk k hkn).2]
      shared := fun k hkn => (symmetric_airplanes h hsym k hkn).2 }
  intro s s₁ z pres sl sl' hr hrun hz
  refine hs.mirrored hn.le hf (fun k hkn => (hk k hkn).2) ?_ hr hrun hz sl'
  intro k hkn a A A' hA hA'
  rw [(hk k hkn).1, hA, Option.some.injEq] at hA'
  subst hA'
  exact ⟨rfl, rfl, rfl⟩

/-- C70: without sideslip, airplanes that move symmetrically have, at every step, no side force, no rolling moment and
no yawing moment, a flow that is its own mirror image and does not cross the plane of symmetry, and a wake that is its
own mirror image. -/
theorem C70_no_sideslip (ams : List AirplaneMovement) (om : OperatingPointMovement) (ns nc nch : Option ℕ)
    (dt : Option ℝ) (only : Bool) (p : UnsteadyProblem) (h : study ams om ns nc nch dt only = .ok p) (hc : p.Chordwise)
    (hsym : ∀ m ∈ ams, m.Symmetric) (hβ : om.base.beta = 0) (s s₁ : UnsteadySolver) (prescribed streamlines : Bool)
    (hr : Reached p s) (hrun : s.run prescribed streamlines = .ok s₁) (k : ℕ) (hk : k < p.numSteps) :
    StepMirrored p p s₁ s₁ k ∧ (∀ q, q.y = 0 → (flow s₁ k q).y = 0) ∧
    (p.firstResultsStep ≤ k → ∀ (a : ℕ) A, (p.airplanesAt k)[a]? = some A → ∃ L : AirplaneLoads,
      (s₁.loads k)[a]? = some L ∧ L.forceWind.y = 0 ∧ L.momentWind.x = 0 ∧ L.momentWind.z = 0 ∧
      L.forceCoefficients.y = 0 ∧ L.momentCoefficients.x = 0 ∧ L.momentCoefficients.z = 0) := by
  obtain ⟨p', h', -, -, -, -, hrest⟩ := C70_sideslip_reversed ams om ns nc nch dt only p h hc hsym
  have hom : ({ om with base := { om.base with beta := -om.base.beta } } : OperatingPointMovement) = om := by
    obtain ⟨b, v⟩ := om
    cases b
    simp only at hβ
    simp [hβ]
  rw [hom, h] at h'
  cases h'
  obtain ⟨z₁, hz₁, hm⟩ := hrest s s₁ s prescribed streamlines streamlines hr hrun hr
  rw [hrun] at hz₁
  cases hz₁
  have hm := hm k hk
  refine ⟨hm, ?_, ?_⟩
  · intro q hq
    have e : mirrored q = q := by ext <;> simp [mirrored, hq]
    have h1 := hm.flow q
    rw [e] at h1
    have h2 := congrArg V3.y h1
    simp only [mirrored] at h2
    linarith
  · intro hfr a A hA
    obtain ⟨L, L', h1, h2, h3, h4, h5, h6⟩ := hm.totals hfr a A hA
    rw [h1, Option.some.injEq] at h2
    subst h2
    have e3 := congrArg V3.y h3
    have e4 := congrArg V3.x h4
    have e5 := congrArg V3.z h4
    have e6 := congrArg V3.y h5
    have e7 := congrArg V3.x h6
    have e8 := congrArg V3.z h6
    simp only [mirrored, V3.neg_x, V3.neg_z] at e3 e4 e5 e6 e7 e8
    exact ⟨L, h1, by linarith, by linarith, by linarith, by linarith, by linarith, by linarith⟩

/-- Non-vacuity: a heaving rectangular wing built with `symmetric=True`, for any amplitude, period, number and length of
steps, in a flow along the chord. -/
example (A P : ℝ) (n : ℕ) (hn : 0 < n) (dt density velocity : ℝ) (hdt : 0 < dt) (hv : 0 < velocity)
    (only pres sl : Bool) :
    ∃ ams om p s s₁, study ams om (some n) none none (some dt) only = .ok p ∧ p.Chordwise ∧ p.numSteps = n ∧
      (∀ m ∈ ams, m.Symmetric) ∧ om.base.beta = 0 ∧ Reached p s ∧ s.run pres sl = .ok s₁ := by
  obtain ⟨am, hsym, p, hp, hst⟩ := SymmetricPlate.movement A P n hn dt { density, velocity, alpha := 0, beta := 0 } only
  obtain ⟨s, hs⟩ := hst.create hn
  have hr : Reached p s := .fresh hs
  obtain ⟨s₁, hrun⟩ := hst.run hdt.le hv.le rfl rfl hr pres sl
  exact ⟨_, _, p, s, s₁, hp, hst.chordwise, hst.steps, by simpa using hsym, rfl, hr, hrun⟩

end Ptera
