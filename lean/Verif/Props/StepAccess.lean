import Verif.Props.Flapping
import Verif.Props.UnsteadyFlow
import Verif.Lemmas.PlateUnsteady

/-!
# C45: which freestream and which airplanes the flow of a step is about
-/

namespace Ptera

open UnsteadySolver

/-- C45: the flow the solver of a movement's problem is about at step `k` contains the freestream of the movement's
operating point number `k`, and the vortices of the panels of the movement's airplanes number `k`, each with the viscosity
of that operating point. -/
theorem C45_own_step (ams : List AirplaneMovement) (om : OperatingPointMovement) (numSteps numCycles numChords : Option ℕ)
    (dt : Option ℝ) (mv : Movement) (h : Movement.create ams om numSteps numCycles numChords dt = .ok mv) (P : ℝ)
    (hP : movementMaxPeriod ams om = .ok P) (only : Bool) (p : UnsteadyProblem)
    (hp : UnsteadyProblem.create mv only = .ok p) (s : UnsteadySolver) (hs : s.problem = p) (k : ℕ)
    (hk : k < mv.numSteps) :
    ∃ op as, mv.operatingPoints[k]? = some op ∧
      List.Forall₂ (fun (history : List Airplane) a => history[k]? = some a) mv.airplanes as ∧
      ∀ q, flow s k q = ((panelRefs as).map fun r => panelInduced op.nu (s.panels k r) q).sum
        + ((s.wakeArrays[k]?.getD []).map fun w =>
            ringInduced op.nu w.frontRight w.frontLeft w.backLeft w.backRight w.strength w.age q).sum
        + op.freestreamVelocity := by
  obtain ⟨up, h1, -, -, -, -, h2⟩ := C31_steady_problems ams om numSteps numCycles numChords dt mv h P hP only
  rw [hp] at h1
  cases h1
  obtain ⟨sp, e1, e2, e3⟩ := h2 k hk
  refine ⟨sp.operatingPoint, sp.airplanes, e3, e2, fun q => ?_⟩
  have ho : s.problem.operatingPointAt k = sp.operatingPoint := by simp [UnsteadyProblem.operatingPointAt, hs, e1]
  have ha : s.problem.airplanesAt k = sp.airplanes := by simp [UnsteadyProblem.airplanesAt, hs, e1]
  unfold flow boundFlow wakeFlow
  rw [ho, ha]

/-- A concrete case: the movement of a heaving plate with any number of steps. -/
example (A P : ℝ) (n : ℕ) (hn : 0 < n) (dt density velocity alpha : ℝ) (only : Bool) :
    ∃ ams om mv p s, Movement.create ams om (some n) none none (some dt) = .ok mv ∧
      movementMaxPeriod ams om = .ok (max 0 P) ∧ UnsteadyProblem.create mv only = .ok p ∧
      UnsteadySolver.create p = .ok s ∧ s.problem = p ∧ p.numSteps = n := by
  obtain ⟨w, -, hw⟩ := heaving_movement A P
  obtain ⟨h1, mv, p, h2, h3, h4, -⟩ := hw { wings := [], xyzRef := 0, weight := 0, sRef := 0, cRef := 0, bRef := 0, numPanels := 0 }
    n hn dt { density, velocity, alpha, beta := 0 } only
  obtain ⟨f, hf⟩ := h4.create hn
  have hr : Reached p f := .fresh hf
  exact ⟨_, _, mv, p, f, h2, h1, h3, hf, (hr.good h4.made.regular).problem, h4.steps⟩

end Ptera
