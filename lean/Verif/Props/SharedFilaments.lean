import Verif.Props.RingLattice
import Verif.Lemmas.TwoPanels

/-!
# C36 fails: a run in which a filament is loaded twice
-/

namespace Ptera

open Real

/-- C36 fails for the ring solver: there is a wing of two neighbouring panels and a run on it whose two panel forces
do not add up to the forces on the five filaments of its front, left, shared and right sides. The forces on the
filaments are Kutta–Joukowski forces with the net strength of the filament and the velocity the solver itself
reports at its middle, and the shared filament is the right side of the one ring and the left side of the other. -/
theorem C36_fails : ∃ (problem : SteadyProblem) (s : RingSolver) (L₀ L₁ : PanelLoads) (v₀ v₁ : RingVortex)
    (front₀ front₁ left shared right : V3),
    (∀ a ∈ problem.airplanes, a.Made) ∧ (RingSolver.create problem).run = .ok s ∧
    panelRefs problem.airplanes = [⟨0, 0, 0, 0⟩, ⟨0, 0, 0, 1⟩] ∧
    (s.heap ⟨0, 0, 0, 0⟩).loads = some L₀ ∧ (s.heap ⟨0, 0, 0, 1⟩).loads = some L₁ ∧
    (s.heap ⟨0, 0, 0, 0⟩).ring = some v₀ ∧ (s.heap ⟨0, 0, 0, 1⟩).ring = some v₁ ∧
    v₀.frontRight = v₁.frontLeft ∧ v₀.backRight = v₁.backLeft ∧
    s.IsLegForce problem.operatingPoint.density v₀.strength v₀.frontRight v₀.frontLeft front₀ ∧
    s.IsLegForce problem.operatingPoint.density v₁.strength v₁.frontRight v₁.frontLeft front₁ ∧
    s.IsLegForce problem.operatingPoint.density v₀.strength v₀.frontLeft v₀.backLeft left ∧
    s.IsLegForce problem.operatingPoint.density (v₁.strength - v₀.strength) v₁.frontLeft v₁.backLeft shared ∧
    s.IsLegForce problem.operatingPoint.density v₁.strength v₁.backRight v₁.frontRight right ∧
    L₀.forceGeometry + L₁.forceGeometry ≠ front₀ + front₁ + left + shared + right := by
  obtain ⟨a, hmade, hrefs, hp, hq, W, hW, hWn, hWl, -⟩ := TwoPanels.airplane
  have hmade' : ∀ b ∈ [a], b.Made := by simpa using hmade
  obtain ⟨s, x, y, hrun, hxy, hr0, hr1, v, hv, hvz⟩ := TwoPanels.run (by simpa using hmade) hrefs hp hq PanelHeap.fresh []
  have hnone : ∀ r : PanelRef, r ≠ ⟨0, 0, 0, 0⟩ → r ≠ ⟨0, 0, 0, 1⟩ → ¬ ∃ p, panelAt [a] r = some p := by
    intro r h0 h1 h
    have := (mem_panelRefs [a] r).mpr h
    rw [hrefs] at this
    simp [h0, h1] at this
  have hshared : SidesShared [a] 0 0 := by
    intro i j p q h1 h2
    have m1 := (mem_panelRefs [a] _).mpr ⟨_, h1⟩
    have m2 := (mem_panelRefs [a] _).mpr ⟨_, h2⟩
    rw [hrefs] at m1 m2
    simp at m1 m2
    obtain ⟨rfl, rfl⟩ := m2
    rw [hp] at h1
    rw [hq] at h2
    cases h1
    cases h2
    exact ⟨rfl, rfl⟩
  obtain ⟨force, front, side, ring, h1, h2, h3⟩ := C36_multiplicities ⟨[a], TwoPanels.upFlow 1⟩ hmade' _ _ s hrun 0 0 0 W
    hW (by omega) 1 hWn hshared
  obtain ⟨L₀, l0, g0, f0, fr0, le0⟩ := h1 0 (by norm_num)
  obtain ⟨L₁, l1, g1, f1, fr1, le1⟩ := h1 1 le_rfl
  obtain ⟨v', hv', -, -, -, -, hside⟩ := C39_steady ⟨[a], TwoPanels.upFlow 1⟩ hmade' _ _ s hrun ⟨0, 0, 0, 0⟩ _ hp
  obtain ⟨v'', hv'', s1, s2⟩ := hside _ hq hshared
  rw [g0] at hv'
  have hv1 : (s.heap ⟨0, 0, 0, 1⟩).ring = some v'' := hv''
  rw [g1] at hv1
  cases hv'
  cases hv1
  have st0 : strengthAt [a] s.heap ⟨0, 0, 0, 0⟩ = (ring 0).strength := by
    unfold strengthAt
    rw [if_pos ⟨_, hp⟩, g0]
    rfl
  have st1 : strengthAt [a] s.heap ⟨0, 0, 0, 1⟩ = (ring 1).strength := by
    unfold strengthAt
    rw [if_pos ⟨_, hq⟩, g1]
    rfl
  have st2 : strengthAt [a] s.heap ⟨0, 0, 0, 2⟩ = 0 := by
    unfold strengthAt
    rw [if_neg (hnone _ (by simp) (by simp))]
  have n1 : netFront [a] s.heap ⟨0, 0, 0, 0⟩ = (ring 0).strength := by simp [netFront, st0]
  have n2 : netFront [a] s.heap ⟨0, 0, 0, 1⟩ = (ring 1).strength := by simp [netFront, st1]
  have n3 : netLeft [a] s.heap ⟨0, 0, 0, 0⟩ = (ring 0).strength := by simp [netLeft, st0]
  have n4 : netLeft [a] s.heap ⟨0, 0, 0, 1⟩ = (ring 1).strength - (ring 0).strength := by simp [netLeft, st0, st1]
  have n5 : netRight [a] s.heap ⟨0, 0, 0, 1⟩ = (ring 1).strength := by simp [netRight, st1, st2]
  simp only [n1, n2, n3, n4, n5] at fr0 le0 fr1 le1 h2
  refine ⟨⟨[a], TwoPanels.upFlow 1⟩, s, L₀, L₁, ring 0, ring 1, front 0, front 1, side 0, side 1, side 2, hmade',
    hrun, hrefs, l0, l1, g0, g1, s1, s2, fr0, fr1, le0, le1, h2, ?_⟩
  intro hcon
  -- the force on the shared filament is not zero
  have hne : side 1 ≠ 0 := by
    obtain ⟨u, hu, hforce⟩ := le1
    obtain ⟨-, q2, q3⟩ := TwoPanels.strip_points 2 3 2 1
    rw [hr0] at g0
    rw [hr1] at g1
    have e0 : (ring 0).strength = x := by rw [← Option.some.inj g0]; rfl
    have e1 : (ring 1).strength = y := by rw [← Option.some.inj g1]; rfl
    have e2 : (ring 1).frontLeft = ⟨1 / 4, 2, 0⟩ := by
      rw [← Option.some.inj g1, ← q3, ← geometryOf_eq hq]; rfl
    have e3 : (ring 1).backLeft = ⟨5 / 4, 2, 0⟩ := by
      rw [← Option.some.inj g1]
      show RingSolver.backLeftVertex [a] ⟨0, 0, 0, 1⟩ = _
      unfold RingSolver.backLeftVertex
      have hte : (stripPanel 0 1 2 3 2 1).isTrailingEdge = true := rfl
      simp only [geometryOf_eq hq, hte, if_true, q3]
      ext <;> simp [stripPanel]
      norm_num
    rw [e2, e3] at hu hforce
    have hmid : (1 / 2 : ℝ) • ((⟨1 / 4, 2, 0⟩ : V3) + ⟨5 / 4, 2, 0⟩) = ⟨3 / 4, 2, 0⟩ := by
      ext <;> simp <;> norm_num
    rw [hmid, hv] at hu
    cases hu
    intro hz
    rw [hz, e0, e1] at hforce
    have hy := congrArg V3.y hforce
    simp [kuttaJoukowski, V3.cross, TwoPanels.upFlow] at hy
    rcases hy with hy | hy
    · exact hxy (by linarith)
    · rcases hy with hy | hy
      · exact hvz hy
      · norm_num at hy
  apply hne
  have e3 : force 0 + force 1 = front 0 + front 1 + (side 0 + side 2) + (2 : ℝ) • side 1 := by
    simpa [List.range_succ] using h3
  rw [← f0, ← f1] at e3
  rw [hcon] at e3
  have hx := congrArg V3.x e3
  have hy := congrArg V3.y e3
  have hz := congrArg V3.z e3
  simp at hx hy hz
  ext <;> simp <;> linarith

end Ptera
