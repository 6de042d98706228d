import Verif.Model.SteadyHorseshoe
import Verif.Model.SteadyRing

/-! Specification vocabulary: what a user reads from a steady solver after a run, for either solver. -/

namespace Ptera

/-- The two steady solvers. -/
inductive SteadyMethod
  | horseshoe
  | ring

/-- What a user reads after a run: the velocity at a point, the strength of each panel's vortex, each panel's loads,
each airplane's total loads and coefficients. -/
structure SteadyResults where
  velocity : V3 → V3
  strength : PanelRef → Option ℝ
  loads : PanelRef → Option PanelLoads
  totals : List AirplaneLoads

noncomputable section

/-- The results of the horseshoe solver. -/
def HorseshoeSolver.results (s : HorseshoeSolver) : SteadyResults :=
  { velocity := fun q => (s.solutionVelocity [q]).headD 0
    strength := fun r => (s.heap r).horseshoe.map (·.strength)
    loads := fun r => (s.heap r).loads
    totals := s.loads }

/-- The results of the ring solver. -/
def RingSolver.results (s : RingSolver) : SteadyResults :=
  { velocity := fun q => (s.solutionVelocity [q]).headD 0
    strength := fun r => (s.heap r).ring.map (·.strength)
    loads := fun r => (s.heap r).loads
    totals := s.loads }

/-- Making a solver for a problem, running it and reading the results. `heap` and `loads` are what earlier runs have
left on the panels and the airplanes. -/
def steadyRun (method : SteadyMethod) (problem : SteadyProblem) (heap : PanelHeap := .fresh)
    (loads : List AirplaneLoads := []) : Except Err SteadyResults :=
  match method with
  | .horseshoe => (HorseshoeSolver.create problem heap loads).run.map HorseshoeSolver.results
  | .ring => (RingSolver.create problem heap loads).run.map RingSolver.results

end

end Ptera
