import Verif.Props.UnsteadyLoads
import Verif.Lemmas.TwoPanelsUnsteady

/-!
# C36 fails in unsteady runs: a run in which a filament is loaded twice
-/

namespace Ptera

open UnsteadySolver

/-- C36 fails for the unsteady solver: there are an unsteady problem, of one step and a wing of two neighbouring panels,
and a run of it whose two panel forces at that step do not add up to the unsteady forces of the panels and the forces on
the five filaments of their front, left, shared and right sides. The forces on the filaments are Kutta–Joukowski forces
with the net strength of the filament and the velocity of the flow at its middle, and the shared filament is the right
side of the one ring and the left side of the other. -/
theorem C36_unsteady_fails : ∃ (p : UnsteadyProblem) (s s' : UnsteadySolver) (L₀ L₁ : PanelLoads)
    (panel₀ panel₁ : Panel) (v₀ v₁ : RingVortex),
    let density := (p.operatingPointAt 0).density
    let legForce := fun (strength : ℝ) (a b : V3) =>
      kuttaJoukowski density strength (flow s' 0 ((1 / 2 : ℝ) • (a + b))) (b - a)
    let unsteadyForce := fun (v : RingVortex) (panel : Panel) =>
      (density * v.strength * panel.area / p.deltaTime) • panel.unitNormal
    p.Made ∧ p.numSteps = 1 ∧ 0 < p.deltaTime ∧ UnsteadySolver.create p = .ok s ∧ s.run = .ok s' ∧
    panelRefs (p.airplanesAt 0) = [⟨0, 0, 0, 0⟩, ⟨0, 0, 0, 1⟩] ∧
    panelAt (p.airplanesAt 0) ⟨0, 0, 0, 0⟩ = some panel₀ ∧ panelAt (p.airplanesAt 0) ⟨0, 0, 0, 1⟩ = some panel₁ ∧
    (s'.panels 0 ⟨0, 0, 0, 0⟩).loads = some L₀ ∧ (s'.panels 0 ⟨0, 0, 0, 1⟩).loads = some L₁ ∧
    (s'.panels 0 ⟨0, 0, 0, 0⟩).ring = some v₀ ∧ (s'.panels 0 ⟨0, 0, 0, 1⟩).ring = some v₁ ∧
    v₀.frontRight = v₁.frontLeft ∧ v₀.backRight = v₁.backLeft ∧
    L₀.forceGeometry + L₁.forceGeometry ≠ unsteadyForce v₀ panel₀ + unsteadyForce v₁ panel₁
      + legForce v₀.strength v₀.frontRight v₀.frontLeft + legForce v₁.strength v₁.frontRight v₁.frontLeft
      + legForce v₀.strength v₀.frontLeft v₀.backLeft
      + legForce (v₁.strength - v₀.strength) v₁.frontLeft v₁.backLeft
      + legForce v₁.strength v₁.backRight v₁.frontRight := by
  obtain ⟨p, s, s', x, y, hmade, hn, hdt, hfirst, hs, hrun, hd, hrefs, hp, hq, ⟨W, hW, hWn, hWl⟩, hr0, hr1, hne⟩ :=
    TwoPanels.unsteady_run
  have hre : Reached p s := .fresh hs
  have h0 : 0 < p.numSteps := by omega
  have hnone : ∀ r : PanelRef, r ≠ ⟨0, 0, 0, 0⟩ → r ≠ ⟨0, 0, 0, 1⟩ → ¬ ∃ q, panelAt (p.airplanesAt 0) r = some q := by
    intro r h0 h1 h
    have := (mem_panelRefs _ r).mpr h
    rw [hrefs] at this
    simp [h0, h1] at this
  have hshared : SidesShared (p.airplanesAt 0) 0 0 := by
    intro i j q q' h1 h2
    have m1 := (mem_panelRefs _ _).mpr ⟨_, h1⟩
    have m2 := (mem_panelRefs _ _).mpr ⟨_, h2⟩
    rw [hrefs] at m1 m2
    simp at m1 m2
    obtain ⟨rfl, rfl⟩ := m2
    rw [hp] at h1
    rw [hq] at h2
    cases h1
    cases h2
    exact ⟨rfl, rfl⟩
  obtain ⟨force, front, unst, side, ring, h1, h2, h3⟩ := C36_unsteady_multiplicities hmade hre hrun 0 h0
    (by rw [hfirst]; rfl) 0 0 0 W hW (by omega) 1 hWn hshared (by intro j hj; omega)
  obtain ⟨L₀, q₀, l0, p0, g0, f0, fr0, un0, le0⟩ := h1 0 (by norm_num)
  obtain ⟨L₁, q₁, l1, p1, g1, f1, fr1, un1, le1⟩ := h1 1 le_rfl
  obtain ⟨v', hv', -, -, -, -, hside⟩ := C39_unsteady hmade hre hrun 0 h0 ⟨0, 0, 0, 0⟩ _ hp
  obtain ⟨v'', hv'', s1, s2⟩ := hside _ hq hshared
  rw [g0] at hv'
  have hv1 : (s'.panels 0 ⟨0, 0, 0, 1⟩).ring = some v'' := hv''
  rw [g1] at hv1
  cases hv'
  cases hv1
  have st0 : strengthAt (p.airplanesAt 0) (s'.panels 0) ⟨0, 0, 0, 0⟩ = (ring 0).strength := by
    unfold strengthAt
    rw [if_pos ⟨_, hp⟩, g0]
    rfl
  have st1 : strengthAt (p.airplanesAt 0) (s'.panels 0) ⟨0, 0, 0, 1⟩ = (ring 1).strength := by
    unfold strengthAt
    rw [if_pos ⟨_, hq⟩, g1]
    rfl
  have st2 : strengthAt (p.airplanesAt 0) (s'.panels 0) ⟨0, 0, 0, 2⟩ = 0 := by
    unfold strengthAt
    rw [if_neg (hnone _ (by simp) (by simp))]
  have n1 : netFront (p.airplanesAt 0) (s'.panels 0) ⟨0, 0, 0, 0⟩ = (ring 0).strength := by simp [netFront, st0]
  have n2 : netFront (p.airplanesAt 0) (s'.panels 0) ⟨0, 0, 0, 1⟩ = (ring 1).strength := by simp [netFront, st1]
  have n3 : netLeft (p.airplanesAt 0) (s'.panels 0) ⟨0, 0, 0, 0⟩ = (ring 0).strength := by simp [netLeft, st0]
  have n4 : netLeft (p.airplanesAt 0) (s'.panels 0) ⟨0, 0, 0, 1⟩ = (ring 1).strength - (ring 0).strength := by
    simp [netLeft, st0, st1]
  have n5 : netRight (p.airplanesAt 0) (s'.panels 0) ⟨0, 0, 0, 1⟩ = (ring 1).strength := by simp [netRight, st1, st2]
  rw [n1] at fr0
  rw [n2] at fr1
  rw [n3] at le0
  rw [n4] at le1
  rw [n5] at h2
  -- the force on the shared filament is not zero
  have hside1 : side 1 ≠ 0 := by
    rw [le1, hd]
    have e0 : (ring 0).strength = x := by rw [hr0] at g0; rw [← Option.some.inj g0]; rfl
    have e1 : (ring 1).strength = y := by rw [hr1] at g1; rw [← Option.some.inj g1]; rfl
    have e2 : (ring 1).backLeft = (boundRing p 0 ⟨0, 0, 0, 1⟩).backLeft := by
      rw [hr1] at g1; rw [← Option.some.inj g1]; rfl
    have e3 : (ring 1).frontLeft = (boundRing p 0 ⟨0, 0, 0, 1⟩).frontLeft := by
      rw [hr1] at g1; rw [← Option.some.inj g1]; rfl
    rw [e0, e1, e2, e3]
    exact hne
  have hrel : ∀ (r : PanelRef) (v : RingVortex) (point : RingVortex → V3), (s'.panels 0 r).ring = some v →
      relativeFlow s' 0 r point = flow s' 0 (point v) := by
    intro r v point hv
    simp [relativeFlow, pointVelocity, ringPoint, hv]
  rw [hrel _ _ _ g0] at fr0 le0
  rw [hrel _ _ _ g1] at fr1 le1 h2
  refine ⟨p, s, s', L₀, L₁, q₀, q₁, ring 0, ring 1, hmade, hn, hdt, hs, hrun, hrefs, p0, p1, l0, l1, g0, g1, s1, s2, ?_⟩
  intro hcon
  beta_reduce at hcon
  apply hside1
  have e3 : force 0 + force 1 = front 0 + unst 0 + (front 1 + unst 1) + (side 0 + side 2) + (2 : ℝ) • side 1 := by
    simpa [List.range_succ] using h3
  have z0 : unst 0 = ((p.operatingPointAt 0).density * (ring 0).strength * q₀.area / p.deltaTime) • q₀.unitNormal := by
    rw [un0]; simp [previousStrength]
  have z1 : unst 1 = ((p.operatingPointAt 0).density * (ring 1).strength * q₁.area / p.deltaTime) • q₁.unitNormal := by
    rw [un1]; simp [previousStrength]
  simp only [RingVortex.frontMiddle, RingVortex.leftMiddle, RingVortex.rightMiddle] at fr0 fr1 le0 le1 h2
  rw [← fr0, ← fr1, ← le0, ← le1, ← h2, ← z0, ← z1, f0, f1, e3] at hcon
  have hx := congrArg V3.x hcon
  have hy := congrArg V3.y hcon
  have hz := congrArg V3.z hcon
  simp at hx hy hz
  ext <;> simp <;> linarith

end Ptera
