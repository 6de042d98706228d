import Verif.Model.Unsteady
import Verif.Model.Convergence

/-!
# Model of the progress bar of `UnsteadyRingVortexLatticeMethodSolver.run`

The bar is shown at the default logging level (unsteady_ring_vortex_lattice_method.py 310). What `run` tells it is
modelled: its length and the amounts it is advanced by. How `tqdm` draws it is not.
-/

namespace Ptera

noncomputable section

namespace UnsteadySolver

/-- `num_ring_vortices` (unsteady_ring_vortex_lattice_method.py 280-287). An entry missing from
`num_wake_ring_vortices_list` is an `IndexError` in Python; it does not occur after the preallocation. -/
def ringsAt (s : UnsteadySolver) (k : ℕ) : ℕ := totalPanels (s.problem.airplanesAt k) + s.wakeCounts.getD k 0

/-- The factor of the number of rings (unsteady_ring_vortex_lattice_method.py 291-296). -/
def timeFactor (k : ℕ) : ℝ := if k = 1 then 70 else if k = 2 then 30 else 3

/-- `approx_times` after the loop (unsteady_ring_vortex_lattice_method.py 273-296): the loop leaves out the first and the
last entry. -/
def partialTimes (s : UnsteadySolver) : List ℝ :=
  (List.range (s.problem.numSteps + 1)).map fun k =>
    if 1 ≤ k ∧ k < s.problem.numSteps then (s.ringsAt k : ℝ) * timeFactor k else 0

/-- `approx_times` (unsteady_ring_vortex_lattice_method.py 298-299). -/
def approxTimes (s : UnsteadySolver) : List ℝ :=
  s.partialTimes.set 0 (pyRound (s.partialTimes.sum / 100) : ℝ)

/-- `total=approx_total_time` (unsteady_ring_vortex_lattice_method.py 300, 305). -/
def barTotal (s : UnsteadySolver) : ℝ := s.approxTimes.sum

/-- The arguments of `bar.update`, in order (unsteady_ring_vortex_lattice_method.py 321, 468): one after the panel vortices
are made and one after each step. -/
def barUpdates (s : UnsteadySolver) : List ℝ :=
  s.approxTimes.getD 0 0 :: (List.range s.problem.numSteps).map fun step => s.approxTimes.getD (step + 1) 0

/-- The length of the bar and its updates during a run of a solver; the loop counting the wake rings has been run before
(unsteady_ring_vortex_lattice_method.py 213-468). -/
def runBar (s : UnsteadySolver) : ℝ × List ℝ := (s.preallocate.barTotal, s.preallocate.barUpdates)

end UnsteadySolver

end

end Ptera
