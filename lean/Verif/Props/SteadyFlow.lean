import Verif.Lemmas.NoPenetration
import Verif.Props.Loads

/-!
# C33, C34, C38 for the steady solvers
-/

namespace Ptera

/-! ## C33: no penetration, horseshoe solver -/

/-- C33 (horseshoe solver): after a run, the velocity the solver reports at the collocation point of any panel of
any airplane is orthogonal to that panel's normal. -/
theorem C33_horseshoe (problem : SteadyProblem) (hmade : ∀ a ∈ problem.airplanes, a.Made) (heap : PanelHeap)
    (loads : List AirplaneLoads) (s : HorseshoeSolver)
    (h : (HorseshoeSolver.create problem heap loads).run = .ok s) (r : PanelRef) (p : Panel)
    (hp : panelAt problem.airplanes r = some p) :
    ∃ v, s.solutionVelocity [p.collocationPoint] = [v] ∧ v.dot p.unitNormal = 0 :=
  horseshoe_no_penetration (counted_of_made hmade) (by simp [HorseshoeSolver.create]) h r p hp

/-! ## C33: no penetration, ring solver -/

/-- C33 (ring solver): after the first run of a new solver, whatever other solvers left on the panels, the
velocity the solver reports at the collocation point of any panel of any airplane is orthogonal to that panel's
normal. -/
theorem C33_ring (problem : SteadyProblem) (hmade : ∀ a ∈ problem.airplanes, a.Made) (heap : PanelHeap)
    (loads : List AirplaneLoads) (s : RingSolver)
    (h : (RingSolver.create problem heap loads).run = .ok s) (r : PanelRef) (p : Panel)
    (hp : panelAt problem.airplanes r = some p) :
    ∃ v, s.solutionVelocity [p.collocationPoint] = [v] ∧ v.dot p.unitNormal = 0 :=
  ring_no_penetration (RingSolver.create_unsolved problem (counted_of_made hmade) heap loads) h r p hp

/-- C33: on airplanes made by the constructors, the only way a steady run fails is a singular system. -/
theorem C33_only_singular_fails (problem : SteadyProblem) (hmade : ∀ a ∈ problem.airplanes, a.Made)
    (heap : PanelHeap) (loads : List AirplaneLoads) (e : Err) :
    ((HorseshoeSolver.create problem heap loads).run = .error e → e = .linAlgError) ∧
    ((RingSolver.create problem heap loads).run = .error e → e = .linAlgError) := by
  have hc := counted_of_made hmade
  constructor
  · intro h
    rw [HorseshoeSolver.run_eq _ hc (by simp [HorseshoeSolver.create])] at h
    cases hx : linalgSolve _ _ with
    | ok x => rw [hx] at h; simp [Except.map] at h
    | error e' =>
      rw [hx] at h
      simp only [Except.map, Except.error.injEq] at h
      rw [← h]
      exact linalgSolve_error hx
  · intro h
    rw [RingSolver.run_eq _ hc (by simp [RingSolver.create]) (by simp [RingSolver.create])] at h
    cases hx : linalgSolve _ _ with
    | ok x => rw [hx] at h; simp [Except.map] at h
    | error e' =>
      rw [hx] at h
      simp only [Except.map, Except.error.injEq] at h
      rw [← h]
      exact linalgSolve_error hx

end Ptera
