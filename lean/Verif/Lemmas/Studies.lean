import Verif.Spec.Studies
import Verif.Props.Flapping

/-! Helper lemmas about making unsteady problems. -/

namespace Ptera

variable {ams ams' : List AirplaneMovement} {om om' : OperatingPointMovement} {ns nc nch : Option ℕ} {dt : Option ℝ}
  {only : Bool} {p : UnsteadyProblem}

/-- The parts of an accepted study. -/
theorem study_parts (h : study ams om ns nc nch dt only = .ok p) :
    p.Made ∧ p.onlyFinalResults = only ∧ p.firstAveragingStep = averagingStart p.numSteps p.maxPeriod p.deltaTime ∧
    p.firstResultsStep = (if only then p.firstAveragingStep else 0) ∧ movementMaxPeriod ams om = .ok p.maxPeriod ∧
    checkRunLength (movementMaxPeriod ams om) ns nc nch = .ok () ∧ chooseDeltaTime ams om dt = .ok p.deltaTime ∧
    runLength ams om p.deltaTime ns nc nch = .ok p.numSteps ∧
    ∃ H O, ams.mapM (fun am => am.generate p.numSteps p.deltaTime) = .ok H ∧
      om.generate p.numSteps p.deltaTime = .ok O ∧
      ∀ k < p.numSteps, List.Forall₂ (fun (history : List Airplane) a => history[k]? = some a) H (p.airplanesAt k) ∧
        O[k]? = some (p.operatingPointAt k) := by
  obtain ⟨mv, h1, h2⟩ := bind_ok.mp h
  obtain ⟨c1, c2, c3, c4, c5, c6, c7⟩ := Movement.create_ok h1
  have hP : ∃ P, movementMaxPeriod ams om = .ok P := by
    unfold UnsteadyProblem.create at h2
    obtain ⟨P, hP, _⟩ := bind_ok.mp h2
    unfold Movement.maxPeriod at hP
    rw [c6, c7] at hP
    exact ⟨P, hP⟩
  obtain ⟨P, hP⟩ := hP
  obtain ⟨up, e, e1, e2, e3, e4, e5⟩ := C31_steady_problems ams om ns nc nch dt mv h1 P hP only
  rw [h2] at e
  cases e
  have hf : p.onlyFinalResults = only ∧ p.firstAveragingStep = averagingStart p.numSteps p.maxPeriod p.deltaTime ∧
      p.firstResultsStep = (if only then p.firstAveragingStep else 0) := by
    unfold UnsteadyProblem.create at h2
    obtain ⟨P', _, h2⟩ := bind_ok.mp h2
    obtain ⟨pr, _, h2⟩ := bind_ok.mp h2
    rw [pure_ok] at h2
    subst h2
    exact ⟨rfl, rfl, rfl⟩
  refine ⟨⟨_, _, _, _, _, _, mv, only, _, h1, h2, .inl rfl⟩, hf.1, hf.2.1, hf.2.2, by rw [hP, e3], c1, ?_, by rw [e1, e2]; exact c3,
    mv.airplanes, mv.operatingPoints, by rw [e1, e2]; exact c4, by rw [e1, e2]; exact c5, ?_⟩
  · cases dt with
    | none => rw [e2]; exact c2
    | some d => rw [e2]; simp only at c2; rw [c2]; rfl
  · intro k hk
    obtain ⟨sp, s1, s2, s3⟩ := e5 k (by rw [← e1]; exact hk)
    simp only [UnsteadyProblem.airplanesAt, UnsteadyProblem.operatingPointAt, s1, Option.map_some, Option.getD_some]
    exact ⟨s2, s3⟩

/-- A study that differs in nothing the times and numbers of steps depend on. -/
theorem study_varied (h : study ams om ns nc nch dt only = .ok p)
    (hP : movementMaxPeriod ams' om' = movementMaxPeriod ams om)
    (hd : chooseDeltaTime ams' om' dt = chooseDeltaTime ams om dt)
    (hn : ∀ d, runLength ams' om' d ns nc nch = runLength ams om d ns nc nch)
    (Q : List (List Airplane) → List (List Airplane) → Prop) (S : List OperatingPoint → List OperatingPoint → Prop)
    (hH : ∀ n d H, ams.mapM (fun am => am.generate n d) = .ok H →
      ∃ H', ams'.mapM (fun am => am.generate n d) = .ok H' ∧ Q H H')
    (hO : ∀ n d O, om.generate n d = .ok O → ∃ O', om'.generate n d = .ok O' ∧ S O O') :
    ∃ p', study ams' om' ns nc nch dt only = .ok p' ∧ p'.Made ∧ p'.numSteps = p.numSteps ∧
      p'.deltaTime = p.deltaTime ∧ p'.maxPeriod = p.maxPeriod ∧ p'.firstAveragingStep = p.firstAveragingStep ∧
      p'.firstResultsStep = p.firstResultsStep ∧ p'.onlyFinalResults = p.onlyFinalResults ∧
      ∃ H H' O O', Q H H' ∧ S O O' ∧
        ∀ k < p.numSteps, List.Forall₂ (fun (history : List Airplane) a => history[k]? = some a) H (p.airplanesAt k) ∧
          List.Forall₂ (fun (history : List Airplane) a => history[k]? = some a) H' (p'.airplanesAt k) ∧
          O[k]? = some (p.operatingPointAt k) ∧ O'[k]? = some (p'.operatingPointAt k) := by
  obtain ⟨-, a1, a2, a3, a4, a5, a6, a7, H, O, hHH, hOO, hk⟩ := study_parts h
  obtain ⟨H', hH', hQ⟩ := hH _ _ H hHH
  obtain ⟨O', hO', hS⟩ := hO _ _ O hOO
  have hmv : Movement.create ams' om' ns nc nch dt = .ok
      { airplaneMovements := ams', operatingPointMovement := om', numSteps := p.numSteps, deltaTime := p.deltaTime
        airplanes := H', operatingPoints := O' } := by
    unfold Movement.create
    rw [hP, a5, hd, a6]
    simp only [bind, Except.bind, hn, a7, hH', hO']
    rfl
  obtain ⟨p', e, e1, e2, e3, -⟩ := C31_steady_problems ams' om' ns nc nch dt _ hmv p.maxPeriod (by rw [hP, a4]) only
  have hst : study ams' om' ns nc nch dt only = .ok p' := bind_ok.mpr ⟨_, hmv, e⟩
  obtain ⟨b0, b1, b2, b3, b4, b5, b6, b7, H'', O'', hH2, hO2, hk2⟩ := study_parts hst
  simp only at e1 e2
  rw [e1, e2] at hH2 hO2
  rw [hH', Except.ok.injEq] at hH2
  rw [hO', Except.ok.injEq] at hO2
  subst hH2 hO2
  refine ⟨p', hst, b0, e1, e2, e3, ?_, ?_, by rw [b1, a1], H, H', O, O', hQ, hS, ?_⟩
  · rw [b2, a2, e1, e2, e3]
  · rw [b3, a3, b2, a2, e1, e2, e3]
  · intro k hkn
    exact ⟨(hk k hkn).1, (hk2 k (by rw [e1]; exact hkn)).1, (hk k hkn).2, (hk2 k (by rw [e1]; exact hkn)).2⟩

end Ptera
