import Verif.Model.Unsteady
import Verif.Model.SteadyHorseshoe
import Verif.Model.SteadyRing

/-!
# A run as a sequence of operations

`run` calls one method after another. Where a call raises (a singular matrix) or the user interrupts the run between
two calls, the operations before it have been done to the solver and to the objects of its problem, and the user keeps
both. Doing all of them is `run` (theorem `C88_operations`).
-/

namespace Ptera
namespace UnsteadySolver

noncomputable section

/-- Something done to a solver and the objects it works on (unsteady_ring_vortex_lattice_method.py 180-476: a method
called by `run`). -/
abbrev Operation := UnsteadySolver → Except Err UnsteadySolver

/-- Operations one after the other (unsteady_ring_vortex_lattice_method.py 180-476), up to the first that raises. -/
def perform (ops : List Operation) (s : UnsteadySolver) : Except Err UnsteadySolver :=
  ops.foldlM (fun s op => op s) s

/-- The operations of one pass of the time loop (unsteady_ring_vortex_lattice_method.py 312-468), in order: setting the
attributes of the step, `collapse_geometry`, the three influence methods, `calculate_vortex_strengths`,
`calculate_near_field_forces_and_moments` from the first results step on, and the two methods of
`populate_next_airplanes_wake`. -/
def stepOperations (prescribed : Bool) (k : ℕ) : List Operation :=
  [fun s => .ok (s.beginStep k), collapseGeometry, fun s => .ok s.calculateWingWingInfluences,
    fun s => .ok s.calculateFreestreamInfluences, fun s => .ok s.calculateWakeInfluences, calculateVortexStrengths,
    fun s => .ok (if s.problem.firstResultsStep ≤ (s.step : ℤ) then s.calculateForces else s),
    fun s => .ok (s.shedVertices prescribed), fun s => .ok s.shedRings]

/-- The operations of `run` (unsteady_ring_vortex_lattice_method.py 180-476) for a problem with `n` steps.
Simplification: the preallocation loop (213-263), which only appends zeros, is one operation, and so is each method. -/
def runOperations (n : ℕ) (prescribed streamlines : Bool) : List Operation :=
  [fun s => .ok s.preallocate, fun s => .ok s.initializePanelVortices] ++
    (List.range n).flatMap (stepOperations prescribed) ++
    [fun s => .ok s.finalize, fun s => .ok (if streamlines then s.calculateStreamlines else s)]

end

end UnsteadySolver

/-! ## The steady solvers -/

noncomputable section

/-- Methods called one after the other (steady_horseshoe_vortex_lattice_method.py 100-147,
steady_ring_vortex_lattice_method.py 124-169), up to the first that raises. -/
def performSteady {σ : Type} (ops : List (σ → Except Err σ)) (s : σ) : Except Err σ := ops.foldlM (fun s op => op s) s

/-- The methods called by `run` (steady_horseshoe_vortex_lattice_method.py 100-147), in order. -/
def HorseshoeSolver.runOperations : List (HorseshoeSolver → Except Err HorseshoeSolver) :=
  [fun s => .ok s.initializePanelVortices, HorseshoeSolver.collapseGeometry,
    fun s => .ok s.calculateWingWingInfluences, fun s => .ok s.calculateFreestreamInfluences,
    HorseshoeSolver.calculateVortexStrengths, fun s => .ok s.calculateForces, fun s => .ok s.calculateStreamlines]

/-- The methods called by `run` (steady_ring_vortex_lattice_method.py 124-169) up to the linear system. -/
def RingSolver.preparations : List (RingSolver → Except Err RingSolver) :=
  [fun s => .ok s.initializePanelVortices, RingSolver.collapseGeometry, fun s => .ok s.calculateWingWingInfluences,
    fun s => .ok s.calculateFreestreamInfluences]

/-- The methods called by `run` (steady_ring_vortex_lattice_method.py 124-169), in order. -/
def RingSolver.runOperations : List (RingSolver → Except Err RingSolver) :=
  RingSolver.preparations ++
    [RingSolver.calculateVortexStrengths, fun s => .ok s.calculateForces, fun s => .ok s.calculateStreamlines]

end

end Ptera
