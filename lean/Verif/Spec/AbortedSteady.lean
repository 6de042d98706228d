import Verif.Model.Operations
import Verif.Spec.SteadyResults

/-! # Vocabulary for steady runs that stop early (C88) -/

namespace Ptera

/-- The horseshoe solvers of a problem a user can have: new ones, on panels in any state; ones that were run, completely
or up to any method; and ones whose panels and airplanes other solvers have used in the meantime. -/
inductive HorseshoeSolver.Reached (problem : SteadyProblem) : HorseshoeSolver → Prop
  | new (heap : PanelHeap) (loads : List AirplaneLoads) : Reached problem (HorseshoeSolver.create problem heap loads)
  | stopped {s a : HorseshoeSolver} {ops : List (HorseshoeSolver → Except Err HorseshoeSolver)} :
      Reached problem s → ops <+: HorseshoeSolver.runOperations → performSteady ops s = .ok a → Reached problem a
  | used {s : HorseshoeSolver} (heap : PanelHeap) (loads : List AirplaneLoads) :
      Reached problem s → Reached problem { s with heap := heap, loads := loads }

/-- The ring solvers of a problem that have not solved a linear system yet: new ones, ones whose runs raised or were
interrupted before, and ones whose panels and airplanes other solvers have used in the meantime. -/
inductive RingSolver.NotSolved (problem : SteadyProblem) : RingSolver → Prop
  | new (heap : PanelHeap) (loads : List AirplaneLoads) : NotSolved problem (RingSolver.create problem heap loads)
  | stopped {s a : RingSolver} {ops : List (RingSolver → Except Err RingSolver)} :
      NotSolved problem s → ops <+: RingSolver.preparations → performSteady ops s = .ok a → NotSolved problem a
  | used {s : RingSolver} (heap : PanelHeap) (loads : List AirplaneLoads) :
      NotSolved problem s → NotSolved problem { s with heap := heap, loads := loads }

/-- Two runs show the same: velocities everywhere, strengths and loads of every panel, loads of the airplanes. -/
def SteadyResults.Same (airplanes : List Airplane) (R R' : SteadyResults) : Prop :=
  R'.velocity = R.velocity ∧ R'.totals = R.totals ∧
  ∀ r p, panelAt airplanes r = some p → R'.strength r = R.strength r ∧ R'.loads r = R.loads r

end Ptera
