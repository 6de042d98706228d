import Verif.Model.SteadyHorseshoe
import Verif.Model.SteadyRing
import Verif.Model.Unsteady

/-!
# Strengths that are not set yet (C90)

`initialize_panel_vortices` makes the vortices of the panels with `strength=None`. In the model an unset strength is the
number 0. Here are the same runs with any numbers in the place of the unset strengths: right after
`initialize_panel_vortices` the strength of every vortex it has made is replaced, and then the run goes on. A run that
used an unset strength anywhere would depend on these numbers.
-/

namespace Ptera

open Classical in
/-- The strengths of the horseshoe vortices just made, replaced by `σ` (cf. steady_horseshoe_vortex_lattice_method.py
149-191). -/
noncomputable def HorseshoeSolver.withUnset (σ : PanelRef → ℝ) (s : HorseshoeSolver) : HorseshoeSolver :=
  { s with
    heap := fun r =>
      if r ∈ panelRefs s.airplanes then
        { s.heap r with horseshoe := (s.heap r).horseshoe.map fun v => v.updateStrength (σ r) }
      else s.heap r }

/-- `HorseshoeSolver.run` (steady_horseshoe_vortex_lattice_method.py 100-147) with `σ` for the unset strengths. -/
noncomputable def HorseshoeSolver.runUnset (σ : PanelRef → ℝ) (s : HorseshoeSolver) : Except Err HorseshoeSolver := do
  let s ← (s.initializePanelVortices.withUnset σ).collapseGeometry
  let s := s.calculateWingWingInfluences.calculateFreestreamInfluences
  let s ← s.calculateVortexStrengths
  pure s.calculateForces.calculateStreamlines

open Classical in
/-- The strengths of the ring vortices and of the horseshoe vortices at the trailing edge just made, replaced by `σ` and
`τ` (cf. steady_ring_vortex_lattice_method.py 171-255). -/
noncomputable def RingSolver.withUnset (σ τ : PanelRef → ℝ) (s : RingSolver) : RingSolver :=
  { s with
    heap := fun r =>
      if r ∈ panelRefs s.airplanes then
        { s.heap r with
          ring := (s.heap r).ring.map fun v => v.updateStrength (σ r)
          horseshoe := if (geometryOf s.airplanes r).isTrailingEdge then
              (s.heap r).horseshoe.map fun v => v.updateStrength (τ r)
            else (s.heap r).horseshoe }
      else s.heap r }

/-- `RingSolver.run` (steady_ring_vortex_lattice_method.py 124-169) with `σ`, `τ` for the unset strengths. -/
noncomputable def RingSolver.runUnset (σ τ : PanelRef → ℝ) (s : RingSolver) : Except Err RingSolver := do
  let s ← (s.initializePanelVortices.withUnset σ τ).collapseGeometry
  let s := s.calculateWingWingInfluences.calculateFreestreamInfluences
  let s ← s.calculateVortexStrengths
  pure s.calculateForces.calculateStreamlines

open Classical in
/-- The strengths of the ring vortices just made for the panels of all steps, replaced by `σ` (cf.
unsteady_ring_vortex_lattice_method.py 478-562). -/
noncomputable def UnsteadySolver.withUnset (σ : ℕ → PanelRef → ℝ) (s : UnsteadySolver) : UnsteadySolver :=
  { s with
    panels := fun k r =>
      if k < s.problem.numSteps ∧ r ∈ panelRefs (s.problem.airplanesAt k) then
        { s.panels k r with ring := (s.panels k r).ring.map fun v => v.updateStrength (σ k r) }
      else s.panels k r }

/-- `UnsteadySolver.run` (unsteady_ring_vortex_lattice_method.py 180-476) with `σ` for the unset strengths. -/
noncomputable def UnsteadySolver.runUnset (σ : ℕ → PanelRef → ℝ) (s : UnsteadySolver) (prescribed : Bool := true)
    (streamlines : Bool := true) : Except Err UnsteadySolver := do
  let s ← (List.range s.problem.numSteps).foldlM (runStep prescribed)
    (s.preallocate.initializePanelVortices.withUnset σ)
  let s := s.finalize
  pure (if streamlines then s.calculateStreamlines else s)

end Ptera
