import Verif.Lemmas.PlateUnsteady
import Verif.Props.UnsteadyLoads
import Verif.Props.UnsteadyReruns
import Verif.Props.FinalLoads

/-! Non-vacuity of the theorems about the unsteady solver (C34-C47). The case: a square flat plate with one panel that
heaves sinusoidally with any amplitude and period (period zero: a static problem), flown for any number of steps with
any time step, speed and angles whose freestream points backwards, with either wake model. It is solved at every step,
by any solver object of the problem; every hypothesis of those theorems holds of it. -/

namespace Ptera

open UnsteadySolver

/-- C40, the converse of `C40_only_singular_fails`: if, at every step, the normal velocities induced by the bound
rings with unit strength at the collocation points form a matrix that `numpy.linalg.solve` accepts, then the run
finishes. -/
theorem C40_run_finishes {p : UnsteadyProblem} {s : UnsteadySolver} (hp : p.Made) (hs : Reached p s)
    (hsol : ∀ k < p.numSteps, ∀ b : List ℝ, b.length = (panelRefs (p.airplanesAt k)).length →
      ∃ x, linalgSolve (wingMatrix p k) b = .ok x) (pres sl : Bool) : ∃ s', s.run pres sl = .ok s' :=
  run_solvable hp.regular (hs.good hp.regular) hsol pres sl

theorem flies_ahead (density velocity alpha : ℝ) (ha : |alpha| ≤ 90) :
    |(OperatingPoint.freestreamDirection { density, velocity, alpha, beta := 0 }).y|
      ≤ (OperatingPoint.freestreamDirection { density, velocity, alpha, beta := 0 }).x := by
  rw [C01_freestream_direction]
  obtain ⟨h1, h2⟩ := abs_le.mp ha
  simp only [zero_mul, zero_div, Real.sin_zero, Real.cos_zero, mul_one, neg_zero, abs_zero]
  have := Real.pi_pos
  apply Real.cos_nonneg_of_neg_pi_div_two_le_of_le <;> nlinarith

/-- The heaving plate meets the hypotheses shared by all theorems: the problem is made by the constructors, its solver
objects run, again and again, and there are panels, wake rings and trailing edges at every step. -/
example (A P : ℝ) (n : ℕ) (hn : 0 < n) (dt density velocity alpha : ℝ) (ha : |alpha| ≤ 90) (hdt : 0 < dt)
    (hv : 0 < velocity) (only pres sl : Bool) :
    ∃ (p : UnsteadyProblem) (s s' s'' : UnsteadySolver), p.Made ∧ p.numSteps = n ∧ p.deltaTime = dt ∧
      p.maxPeriod = max 0 P ∧ UnsteadySolver.create p = .ok s ∧ s.run pres sl = .ok s' ∧ s'.run pres sl = .ok s'' ∧
      Reached p s ∧ Reached p s' ∧ Reached p s'' ∧
      (∀ k < n, ∃ panel, panelAt (p.airplanesAt k) ⟨0, 0, 0, 0⟩ = some panel) ∧
      (∀ k < n, ∀ i < k, (⟨0, 0, i, 0⟩ : WakePlace) ∈ wakePlaces p k ∧
        IsTrailing p (k - 1 - i) ⟨0, 0, i, 0⟩ ⟨0, 0, 0, 0⟩ ∧ IsTrailing p k ⟨0, 0, i, 0⟩ ⟨0, 0, 0, 0⟩) ∧
      (∀ j, j + 1 < n → ∃ d, p.Translates j 0 0 d) := by
  obtain ⟨p, hp, _⟩ := heaving_problem A P n hn dt density velocity alpha 0 only
  obtain ⟨s, hs⟩ := hp.create hn
  have hr : Reached p s := .fresh hs
  have hd := flies_ahead density velocity alpha ha
  obtain ⟨s', h'⟩ := hp.run hdt.le hv.le hd hr pres sl
  have hr' : Reached p s' := .rerun hr h'
  obtain ⟨s'', h''⟩ := hp.run hdt.le hv.le hd hr' pres sl
  refine ⟨p, s, s', s'', hp.made, hp.steps, hp.dt, hp.period, hs, h', h'', hr, hr', .rerun hr' h'', ?_, ?_,
    ?_⟩
  · exact fun k hk => ⟨_, (hp.refs hk).2⟩
  · exact fun k hk i hi => ⟨hp.place hk hi, hp.trailing (by omega), hp.trailing hk⟩
  · exact fun j hj => ⟨_, hp.translates hj⟩

/-- C47 with a period: the time step divides the period of the heaving plate evenly enough that the averaging window
is not the whole run, and its final means are there. -/
example (A density velocity : ℝ) (hv : 0 < velocity) (pres sl : Bool) : ∃ (p : UnsteadyProblem) (s s' : UnsteadySolver),
    Reached p s ∧ s.run pres sl = .ok s' ∧ p.firstAveragingStep = 20 ∧ p.numSteps = 30 ∧
    ∃ m c : V3, s'.finalMean.forces[0]? = some m ∧ s'.finalMean.forceCoefficients[0]? = some c ∧
      c = ⟨-m.x / (0.5 * density * velocity ^ 2 * 1), m.y / (0.5 * density * velocity ^ 2 * 1),
        -m.z / (0.5 * density * velocity ^ 2 * 1)⟩ := by
  obtain ⟨p, hp, _⟩ := heaving_problem A 1 30 (by norm_num) 0.1 density velocity 5 0 false
  obtain ⟨s, hs⟩ := hp.create (by norm_num)
  have hr : Reached p s := .fresh hs
  obtain ⟨s', h'⟩ := hp.run (by norm_num) hv.le (flies_ahead density velocity 5 (by norm_num)) hr pres sl
  have hper : p.maxPeriod = 1 := by rw [hp.period]; norm_num
  have hdt : 0 < p.deltaTime := by rw [hp.dt]; norm_num
  have hwin : p.firstAveragingStep = 20 := by
    rw [(hp.made.window (by rw [hp.steps]; norm_num) hdt (by rw [hper]; norm_num)).2.2.2, averagingStart, hper, hp.steps,
      hp.dt]
    norm_num
  have h0 : (p.airplanesAt 0).length = 1 := by
    obtain ⟨_, a, w, h1, _⟩ := hp.step 0 (by norm_num)
    rw [h1]; rfl
  have hnew : s.finalMean = {} := by
    unfold UnsteadySolver.create at hs
    split at hs
    · simp at hs
    · rw [← Except.ok.inj hs]
  refine ⟨p, s, s', hr, h', hwin, hp.steps, ?_⟩
  obtain ⟨m, c, e1, e2, e3⟩ := C47_coefficients hp.made hr h' hdt (by rw [hper]; norm_num) 0 (by omega)
    (0.5 * density * velocity ^ 2) 1 (by
      intro k _ hk
      rw [hp.steps] at hk
      rw [(hp.step k hk).1]) (by
      intro k a _ hk ha
      rw [hp.steps] at hk
      obtain ⟨_, b, w, h1, _, _, _, _, h6⟩ := hp.step k hk
      rw [h1] at ha
      simp at ha
      rw [← ha, h6])
  rw [hnew] at e1 e2
  exact ⟨m, c, by simpa using e1, by simpa using e2, e3⟩

/-- C36 and C47 (static): their remaining hypotheses hold of the plate. -/
example (n : ℕ) (hn : 0 < n) (dt density velocity : ℝ) : ∃ p : UnsteadyProblem, p.Made ∧ p.maxPeriod = 0 ∧
    p.numSteps = n ∧ p.deltaTime = dt ∧ ∀ k < n, p.firstResultsStep ≤ (k : ℤ) ∧ SidesShared (p.airplanesAt k) 0 0 ∧
      ∃ W, wingAt (p.airplanesAt k) ⟨0, 0, 0, 0⟩ = some W ∧ W.numSpanwisePanels = 0 + 1 ∧ 0 < W.panels.length := by
  obtain ⟨p, hp, ho⟩ := heaving_problem 0 0 n hn dt density velocity 5 0 false
  refine ⟨p, hp.made, by rw [hp.period]; norm_num, hp.steps, hp.dt, ?_⟩
  intro k hk
  obtain ⟨_, a, w, h1, h2, h3, h4, h5, h6⟩ := hp.step k hk
  refine ⟨?_, ?_, w, by simp [wingAt, h1, h2], h3, by simp [h4]⟩
  · rw [hp.made.results, ho]
    simp
  · intro i j q q' _ hq'
    simp [panelAt, wingAt, h1, h2, h4] at hq'
    cases i <;> simp at hq'

end Ptera
