import Verif.Lemmas.UnsetSteady
import Verif.Props.SteadyLoads
import Verif.Props.UnsteadyExample

/-!
# C90: strengths that are not set yet are never used

`runUnset` (Spec/Unset) is the run with arbitrary numbers as the strengths of the vortices that
`initialize_panel_vortices` makes with `strength=None`.
-/

namespace Ptera

/-- C90 (horseshoe solver): whatever numbers stand in for the strengths that are not set yet, the run succeeds or fails
in the same way and leaves the same solver, panels and airplanes. -/
theorem C90_horseshoe (s : HorseshoeSolver) (σ : PanelRef → ℝ) :
    (∀ r ∈ panelRefs s.airplanes, (((s.initializePanelVortices.withUnset σ).heap r).horseshoe.map fun v =>
      (v.strength, v.rightLeg.strength, v.finiteLeg.strength, v.leftLeg.strength)) = some (σ r, σ r, σ r, σ r)) ∧
    s.runUnset σ = s.run := by
  refine ⟨?_, HorseshoeSolver.runUnset_eq σ s⟩
  intro r hr
  unfold HorseshoeSolver.withUnset
  simp only
  rw [if_pos (show r ∈ panelRefs s.initializePanelVortices.airplanes from hr), (HorseshoeSolver.init_heap s).1 r hr]
  rfl

/-- C90 (steady ring solver): the same for the rings and for the horseshoes at the trailing edge. -/
theorem C90_ring (s : RingSolver) (σ τ : PanelRef → ℝ) :
    (∀ r ∈ panelRefs s.airplanes, (((s.initializePanelVortices.withUnset σ τ).heap r).ring.map fun v =>
      (v.strength, v.frontLeg.strength, v.leftLeg.strength, v.backLeg.strength, v.rightLeg.strength))
        = some (σ r, σ r, σ r, σ r, σ r) ∧
      ((geometryOf s.airplanes r).isTrailingEdge →
        (((s.initializePanelVortices.withUnset σ τ).heap r).horseshoe.map fun v =>
          (v.strength, v.rightLeg.strength, v.finiteLeg.strength, v.leftLeg.strength))
            = some (τ r, τ r, τ r, τ r))) ∧
    s.runUnset σ τ = s.run := by
  refine ⟨?_, RingSolver.runUnset_eq σ τ s⟩
  intro r hr
  unfold RingSolver.withUnset
  simp only
  rw [if_pos (show r ∈ panelRefs s.initializePanelVortices.airplanes from hr), (RingSolver.init_heap s).1 r hr]
  refine ⟨rfl, fun ht => ?_⟩
  rw [if_pos (show (geometryOf s.initializePanelVortices.airplanes r).isTrailingEdge = true from ht)]
  unfold RingSolver.initState
  simp only [ht, if_true]
  rfl

/-- C90 (unsteady solver): the rings of the panels of all time steps are made before the first step, without strengths.
Whatever numbers stand in for these strengths, the run succeeds or fails in the same way and leaves the same solver,
panels, airplanes, wakes and result lists: no step looks at the strengths of later steps, or at those of its own before
they are known. -/
theorem C90_unsteady (s : UnsteadySolver) (σ : ℕ → PanelRef → ℝ) (pres sl : Bool) :
    (∀ k < s.problem.numSteps, ∀ r ∈ panelRefs (s.problem.airplanesAt k),
      (((s.preallocate.initializePanelVortices.withUnset σ).panels k r).ring.map fun v =>
        (v.strength, v.frontLeg.strength, v.leftLeg.strength, v.backLeg.strength, v.rightLeg.strength))
          = some (σ k r, σ k r, σ k r, σ k r, σ k r)) ∧
    s.runUnset σ pres sl = s.run pres sl := by
  refine ⟨?_, UnsteadySolver.runUnset_eq σ s pres sl⟩
  intro k hk r hr
  unfold UnsteadySolver.withUnset
  simp only
  rw [if_pos (⟨hk, hr⟩ : k < s.preallocate.initializePanelVortices.problem.numSteps ∧
    r ∈ panelRefs (s.preallocate.initializePanelVortices.problem.airplanesAt k))]
  have := (UnsteadySolver.initializeStep_spec (s.problem.airplanesAt k)
    (s.problem.operatingPointAt k).freestreamVelocity s.problem.deltaTime (s.panels k)).1 r hr
  have e : s.preallocate.initializePanelVortices.panels k r = _ := this
  rw [e]
  rfl

/-- Runs to which this applies: the square plate, with 7 instead of the unset strengths. -/
example (op : OperatingPoint) (hd : |op.freestreamDirection.y| ≤ op.freestreamDirection.x) :
    ∃ (a : Airplane) (s : HorseshoeSolver) (s' : RingSolver), panelRefs [a] = [⟨0, 0, 0, 0⟩] ∧
      (HorseshoeSolver.create ⟨[a], op⟩).run = .ok s ∧
      (HorseshoeSolver.create ⟨[a], op⟩).runUnset (fun _ => 7) = .ok s ∧
      (RingSolver.create ⟨[a], op⟩).run = .ok s' ∧
      (RingSolver.create ⟨[a], op⟩).runUnset (fun _ => 7) (fun _ => -7) = .ok s' := by
  obtain ⟨a, hmade, hrefs, hp, hspan, _⟩ := plate_airplane
  obtain ⟨s, hs, _⟩ := plate_horseshoe_run (op := op) hmade hrefs hp hspan hd .fresh []
  obtain ⟨s', hs', _⟩ := plate_ring_run (op := op) hmade hrefs hp hspan hd .fresh []
  exact ⟨a, s, s', hrefs, hs, by rw [(C90_horseshoe _ _).2]; exact hs, hs', by rw [(C90_ring _ _ _).2]; exact hs'⟩

/-- An unsteady one: the heaving plate. -/
example (A T : ℝ) (n : ℕ) (hn : 0 < n) (dt density velocity alpha : ℝ) (ha : |alpha| ≤ 90) (hdt : 0 < dt)
    (hv : 0 < velocity) (pres sl : Bool) : ∃ (p : UnsteadyProblem) (s s' : UnsteadySolver), UnsteadySolver.create p = .ok s ∧
      p.numSteps = n ∧ s.run pres sl = .ok s' ∧ s.runUnset (fun k _ => k + 7) pres sl = .ok s' := by
  obtain ⟨p, hp, _⟩ := heaving_problem A T n hn dt density velocity alpha 0 false
  obtain ⟨s, hs⟩ := hp.create hn
  obtain ⟨s', h'⟩ := hp.run hdt.le hv.le (flies_ahead density velocity alpha ha) (.fresh hs) pres sl
  exact ⟨p, s, s', hs, hp.steps, h', by rw [(C90_unsteady _ _ _ _).2]; exact h'⟩

end Ptera
