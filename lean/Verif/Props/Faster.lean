import Verif.Lemmas.FasterStudy
import Verif.Lemmas.PlateUnsteady

/-!
# Unsteady results and the speed of everything

C86: flying and moving `c` times as fast, through a fluid whose viscosity grows with the speed, shows the same wake and
the same coefficients.
-/

namespace Ptera

open UnsteadySolver

/-- C86: take any study that is accepted and multiply all speeds by `c > 0`: the velocities by `c`, and the periods of
all oscillations and the time step, if given, by `1 / c`. The changed study is accepted, with the same number of steps,
the same airplanes at every step, `1 / c` of the time step and of the longest period, and the same steps to average
over. With viscosities in proportion (the same Reynolds number), its run succeeds if the first does; then at every step
the flow and all vortex strengths are `c` times those of the first, the wake is at the same place, loads are `c ^ 2`
times as large and the coefficients are the same. -/
theorem C86_faster (ams : List AirplaneMovement) (om : OperatingPointMovement) (ns nc nch : Option ℕ) (dt : Option ℝ)
    (only : Bool) (p : UnsteadyProblem) (h : study ams om ns nc nch dt only = .ok p) (c : ℝ) (hc : 0 < c) :
    ∃ p', study (ams.map (·.faster c)) (om.faster c) ns nc nch (dt.map (· / c)) only = .ok p' ∧
      p'.numSteps = p.numSteps ∧ p'.deltaTime = p.deltaTime / c ∧ p'.maxPeriod = p.maxPeriod / c ∧
      p'.firstAveragingStep = p.firstAveragingStep ∧ p'.firstResultsStep = p.firstResultsStep ∧
      (∀ k < p.numSteps, p'.airplanesAt k = p.airplanesAt k ∧
        p'.operatingPointAt k = { p.operatingPointAt k with velocity := c * (p.operatingPointAt k).velocity }) ∧
      ∀ nu : ℕ → ℝ, (∀ k, 0 ≤ nu k) → ∀ s s₁ z prescribed streamlines streamlines', Reached (p.withViscosity nu) s →
        s.run prescribed streamlines = .ok s₁ → Reached (p'.withViscosity fun k => c * nu k) z →
        ∃ z₁, z.run prescribed streamlines' = .ok z₁ ∧
          ∀ k < p.numSteps, StepFaster (p.withViscosity nu) c s₁ z₁ k := by
  obtain ⟨p', h', hm', hn, hd, hP, ha, hf, -, hk⟩ := study_faster hc h
  refine ⟨p', h', hn, hd, hP, ha, hf, hk, ?_⟩
  intro nu hnu s s₁ z pres sl sl' hr hrun hz
  exact (FasterProblem.of_study hc (study_parts h).1 hm' hn hd hf hk nu hnu).corresponds hr hrun hz sl'

/-- The hypotheses are met: a heaving plate in a fluid of any viscosity; it runs with and without the prescribed wake,
and from the second step on there is a wake. -/
example (A P : ℝ) (n : ℕ) (hn : 0 < n) (dt velocity alpha viscosity : ℝ) (ha : |alpha| ≤ 90) (hdt : 0 < dt)
    (hv : 0 < velocity) (hnu : 0 ≤ viscosity) (only pres sl : Bool) :
    ∃ ams om p s s₁, study ams om (some n) none none (some dt) only = .ok p ∧ p.numSteps = n ∧
      Reached (p.withViscosity fun _ => viscosity) s ∧ s.run pres sl = .ok s₁ ∧
      ∀ k < n, ∀ i < k, (⟨0, 0, i, 0⟩ : WakePlace) ∈ wakePlaces (p.withViscosity fun _ => viscosity) k := by
  obtain ⟨w, hw, -, h⟩ := heaving_movement_of 1 A P
  obtain ⟨a, ha1⟩ : ∃ a, Airplane.create [w] = .ok a := ⟨_, rfl⟩
  obtain ⟨-, mv, p, h1, h2, hp, -⟩ := h a n hn dt { velocity := velocity, alpha := alpha, beta := 0 } only
  have hp' : HeavingPlate (p.withViscosity fun _ => viscosity) n dt (max 0 P)
      (fun k => (oscillatingSinspace A P 0 n dt).getD k 0)
      { density := 1.225, velocity := velocity, alpha := alpha, beta := 0, nu := viscosity } := by
    refine ⟨hp.made.withViscosity _ fun _ => hnu, hp.steps, hp.dt, hp.period, ?_, ?_⟩
    · intro k hk
      rw [p.withViscosity_operatingPoint _ k (by rw [hp.made.regular.steps, hp.steps]; exact hk),
        p.withViscosity_airplanes, (hp.step k hk).1]
      exact ⟨rfl, (hp.step k hk).2⟩
    · intro k hk
      rw [p.withViscosity_airplanes]
      exact hp.references k hk
  obtain ⟨s, hs⟩ := hp'.create hn
  obtain ⟨s₁, hrun⟩ := hp'.run hdt.le hv.le (flies_ahead 1.225 velocity alpha ha) (.fresh hs) pres sl
  exact ⟨_, _, p, s, s₁, bind_ok.mpr ⟨mv, h1, h2⟩, hp.steps, .fresh hs, hrun, fun k hk i hi => hp'.place hk hi⟩

end Ptera
