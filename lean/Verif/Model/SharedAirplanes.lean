import Verif.Model.SteadyHorseshoe
import Verif.Model.SteadyRing

/-!
# Airplane objects that are part of several steady problems

`SteadyProblem.__init__` keeps the list of airplane objects it is given, and the solvers write vortices and loads into
their panels and total loads into the airplanes themselves. Here airplane objects are identified by numbers.
Simplifications: the geometry of an airplane is not assigned to after its construction, and an airplane is not twice in one
problem (such a problem is never solved, C89).
-/

namespace Ptera

noncomputable section

/-- The airplane objects of a session (geometry.py 48-147): their geometry, the mutable attributes of their panels
(panel.py 123-134; the first component of a `PanelRef` is the identity of the airplane here), and the attributes for total
loads, `None` before a run (geometry.py 124-127). -/
structure Hangar where
  geometry : ℕ → Airplane
  panels : PanelHeap := .fresh
  totals : ℕ → Option AirplaneLoads := fun _ => none

namespace Hangar

/-- `SteadyProblem.__init__` (problems.py 30-40): the problem of some of the airplanes. -/
def problem (h : Hangar) (ids : List ℕ) (op : OperatingPoint) : SteadyProblem := ⟨ids.map h.geometry, op⟩

/-- What a solver finds at the panels of its airplanes (problems.py 38, panel.py 123-134). -/
def found (h : Hangar) (ids : List ℕ) : PanelHeap := fun r =>
  match ids[r.airplane]? with
  | some a => h.panels { r with airplane := a }
  | none => {}

/-- The session after a solver has written to its airplanes and their panels (functions.py 270-396, and the assignments to
`panel.horseshoe_vortex` and `panel.ring_vortex`: steady_horseshoe_vortex_lattice_method.py 185-191,
steady_ring_vortex_lattice_method.py 240-255). -/
def store (h : Hangar) (ids : List ℕ) (panels : PanelHeap) (loads : List AirplaneLoads) : Hangar :=
  { h with
    panels := fun r => if r.airplane ∈ ids then panels { r with airplane := ids.idxOf r.airplane } else h.panels r
    totals := fun a => if a ∈ ids then loads[ids.idxOf a]? else h.totals a }

/-- A new horseshoe solver is made and run (steady_horseshoe_vortex_lattice_method.py 60-98, 100-147). -/
def runHorseshoe (h : Hangar) (ids : List ℕ) (op : OperatingPoint) : Except Err (Hangar × HorseshoeSolver) :=
  (HorseshoeSolver.create (h.problem ids op) (h.found ids) (ids.filterMap h.totals)).run.map fun s =>
    (h.store ids s.heap s.loads, s)

/-- A new ring solver is made and run (steady_ring_vortex_lattice_method.py 62-122, 124-169). -/
def runRing (h : Hangar) (ids : List ℕ) (op : OperatingPoint) : Except Err (Hangar × RingSolver) :=
  (RingSolver.create (h.problem ids op) (h.found ids) (ids.filterMap h.totals)).run.map fun s =>
    (h.store ids s.heap s.loads, s)

end Hangar

end

end Ptera
