import Verif.Spec.PanelVelocity
import Verif.Props.RingLattice
import Verif.Props.UnsteadyFlow

/-!
# C105: a panel can be asked for the velocity its vortices induce

The panel's two methods call methods of the same names on its vortices, which have none: every panel that has a vortex
raises, so after every run of a solver all panels do.
-/

namespace Ptera

noncomputable section

open UnsteadySolver

/-- C105 (the part that holds): panels without vortices, as they are before a run, give the velocity of their
vortices at every point, which is zero. -/
theorem C105_without_vortices_partial (s : PanelState) (hr : s.ring = none) (hh : s.horseshoe = none) (q : V3) :
    s.AnswersAt q ∧ s.inducedVelocity q = .ok 0 := by
  unfold PanelState.AnswersAt PanelState.unitFilaments PanelState.filaments PanelState.inducedVelocity
    PanelState.normalizedInducedVelocity
  rw [hr, hh]
  exact ⟨⟨rfl, rfl⟩, rfl⟩

/-- C105 is false of the code: a panel answers exactly if it has no vortex, and raises otherwise. -/
theorem C105_fails (s : PanelState) (q : V3) :
    (s.AnswersAt q ↔ s.ring = none ∧ s.horseshoe = none) ∧
      (s.RaisesAt q ↔ ¬ (s.ring = none ∧ s.horseshoe = none)) := by
  obtain ⟨ring, horseshoe, loads⟩ := s
  cases ring <;> cases horseshoe <;>
    simp [PanelState.AnswersAt, PanelState.RaisesAt, PanelState.inducedVelocity, PanelState.normalizedInducedVelocity,
      addVortex, RingVortex.inducedVelocity, RingVortex.normalizedInducedVelocity, HorseshoeVortex.inducedVelocity,
      HorseshoeVortex.normalizedInducedVelocity, PanelState.filaments, PanelState.unitFilaments, filamentFlow,
      Except.bind, Except.map]

/-- C105 is false of the code after every run of the horseshoe solver, for every panel and every point. -/
theorem C105_horseshoe_fails (problem : SteadyProblem) (hmade : ∀ a ∈ problem.airplanes, a.Made) (heap : PanelHeap)
    (loads : List AirplaneLoads) (s : HorseshoeSolver)
    (h : (HorseshoeSolver.create problem heap loads).run = .ok s) (r : PanelRef) (p : Panel)
    (hp : panelAt problem.airplanes r = some p) (q : V3) : (s.heap r).RaisesAt q := by
  have ha : ∃ a, problem.airplanes[r.airplane]? = some a := by
    cases e : problem.airplanes[r.airplane]? with
    | some a => exact ⟨a, rfl⟩
    | none => simp [panelAt, wingAt, e] at hp
  obtain ⟨a, ha⟩ := ha
  obtain ⟨_, v, _, _, hv, _⟩ := C35_horseshoe problem hmade heap loads s h r p a hp ha
  exact (C105_fails _ q).2.mpr fun hn => by simp [hv] at hn

/-- C105 is false of the code after every run of the steady ring solver, for every panel and every point. -/
theorem C105_ring_fails (problem : SteadyProblem) (hmade : ∀ a ∈ problem.airplanes, a.Made) (heap : PanelHeap)
    (loads : List AirplaneLoads) (s : RingSolver) (h : (RingSolver.create problem heap loads).run = .ok s)
    (r : PanelRef) (p : Panel) (hp : panelAt problem.airplanes r = some p) (q : V3) : (s.heap r).RaisesAt q := by
  obtain ⟨v, hv, _⟩ := C39_steady problem hmade heap loads s h r p hp
  exact (C105_fails _ q).2.mpr fun hn => by simp [hv] at hn

/-- C105 is false of the code after every run of the unsteady solver, for every panel of every step and every
point. -/
theorem C105_unsteady_fails {p : UnsteadyProblem} {s s' : UnsteadySolver} {pres sl : Bool} (hp : p.Made)
    (hs : Reached p s) (h : s.run pres sl = .ok s') (k : ℕ) (hk : k < p.numSteps) (r : PanelRef) (panel : Panel)
    (hpanel : panelAt (p.airplanesAt k) r = some panel) (q : V3) : (s'.panels k r).RaisesAt q := by
  obtain ⟨v, hv, _⟩ := C39_unsteady hp hs h k hk r panel hpanel
  exact (C105_fails _ q).2.mpr fun hn => by simp [hv] at hn

/-- Concrete cases: the panels of a new problem have no vortices; a plate in a steep flow is solved by both steady
solvers, and its panel then raises. -/
example : ∃ (problem : SteadyProblem) (s : HorseshoeSolver) (t : RingSolver) (r : PanelRef) (p : Panel),
    (∀ a ∈ problem.airplanes, a.Made) ∧ panelAt problem.airplanes r = some p ∧
    (HorseshoeSolver.create problem).run = .ok s ∧ (RingSolver.create problem).run = .ok t ∧
    (PanelHeap.fresh r).AnswersAt ⟨1, 2, 3⟩ ∧ (s.heap r).RaisesAt ⟨1, 2, 3⟩ ∧ (t.heap r).RaisesAt ⟨1, 2, 3⟩ := by
  obtain ⟨a, hmade, hrefs, hp, hspan, -⟩ := plate_airplane
  have hm : ∀ b ∈ [a], b.Made := by simpa using hmade
  obtain ⟨s, hs, -⟩ := plate_horseshoe_run (steepFlow 10) hmade hrefs hp hspan (steepFlow_ahead 10) PanelHeap.fresh []
  obtain ⟨t, ht, -⟩ := plate_ring_run (steepFlow 10) hmade hrefs hp hspan (steepFlow_ahead 10) PanelHeap.fresh []
  exact ⟨⟨[a], steepFlow 10⟩, s, t, _, _, hm, hp, hs, ht, (C105_without_vortices_partial _ rfl rfl _).1,
    C105_horseshoe_fails _ hm _ _ s hs _ _ hp _, C105_ring_fails _ hm _ _ t ht _ _ hp _⟩

end

end Ptera
