import Verif.Model.Operations

/-!
Several unsteady problems built from one movement. `UnsteadyProblem.__init__` (problems.py 122-143) puts the airplane
objects of the movement in the problem's steady problems: it does not copy them. Panels, wings, their wakes and the total
loads of the airplanes are therefore shared by all problems of a movement, and by all solvers of these problems. The
lists of final results belong to the problem (problems.py 98-120), everything else to the solver.
-/

namespace Ptera

/-- The lists of final results of one problem (problems.py 98-120). -/
structure FinalLists where
  final : ResultLists := {}
  mean : ResultLists := {}
  rms : ResultLists := {}

/-- What is there when several problems are built from one movement: the objects of the movement's airplanes, the result
lists of every problem, and the solvers made so far, each with the number of its problem. The solver's own attributes are
those of `UnsteadySolver` outside `UnsteadyObjects`; the lists in `objects` are not used. (problems.py 98-143,
unsteady_ring_vortex_lattice_method.py 93-178.) -/
structure MovementSession where
  objects : UnsteadyObjects := {}
  lists : ℕ → FinalLists := fun _ => {}
  solvers : ℕ → Option (ℕ × UnsteadySolver) := fun _ => none

namespace MovementSession

/-- The objects a solver of problem `i` works on: those of the movement, and the lists of its problem
(unsteady_ring_vortex_lattice_method.py 100-103, 1586-1727; problems.py 98-143). -/
def seen (h : MovementSession) (i : ℕ) : UnsteadyObjects :=
  { h.objects with final := (h.lists i).final, finalMean := (h.lists i).mean, finalRms := (h.lists i).rms }

/-- A solver of problem `i` and the objects as they are now: its attributes are references to them
(unsteady_ring_vortex_lattice_method.py 100-103, problems.py 122-143). -/
def present (h : MovementSession) (i : ℕ) (s : UnsteadySolver) : UnsteadySolver :=
  { s with toUnsteadyObjects := h.seen i }

/-- Solver `j`, of problem `i`, was made (unsteady_ring_vortex_lattice_method.py 93-178): no object changes. -/
def enter (h : MovementSession) (j i : ℕ) (s : UnsteadySolver) : MovementSession :=
  { h with solvers := fun j' => if j' = j then some (i, s) else h.solvers j' }

/-- Solver `j`, of problem `i`, worked on the objects (unsteady_ring_vortex_lattice_method.py 180-476): the movement's
objects and the lists of its problem are as it leaves them. -/
def record (h : MovementSession) (j i : ℕ) (s : UnsteadySolver) : MovementSession where
  objects := s.toUnsteadyObjects
  lists := fun i' => if i' = i then ⟨s.final, s.finalMean, s.finalRms⟩ else h.lists i'
  solvers := fun j' => if j' = j then some (i, s) else h.solvers j'

/-- `run` of solver `j`, of problem `i`, with own attributes `s` (unsteady_ring_vortex_lattice_method.py 180-476). -/
noncomputable def run (h : MovementSession) (j i : ℕ) (s : UnsteadySolver) (prescribed streamlines : Bool) :
    Except Err MovementSession :=
  ((h.present i s).run prescribed streamlines).map (h.record j i)

end MovementSession

end Ptera
