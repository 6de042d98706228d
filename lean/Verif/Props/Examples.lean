import Verif.Props.Mesh
import Verif.Props.Planform
import Verif.Props.SteadyFlow
import Verif.Props.SteadyRuns
import Verif.Lemmas.PlateSolve

/-!
# Concrete cases

Wings and runs that meet the hypotheses of the theorems of `Mesh.lean` (C18 to C21), `Chords.lean` (C23), `SteadyFlow.lean`
(C33) and `SteadyRuns.lean` (C34, C35, C38).
-/

namespace Ptera

/-- C18 to C21 and C23: a tapered, swept, symmetric wing with dihedral, six rows of eight panels. -/
example : ∃ w, Wing.create [plateSection 0 2 0 0 "symmetric" 4 "cosine", plateSection ⟨1, 5, 1⟩ 1 0 0 "symmetric" 4 "cosine"]
      0 ⟨0, 1, 0⟩ true ⟨1, 0, 0⟩ 6 "cosine" = .ok w ∧
    w.panels.length = 6 ∧ w.numSpanwisePanels = 8 ∧ w.numPanels = 48 ∧ 0 ≤ w.projectedArea ∧
    w.projectedArea ≤ w.wettedArea ∧
    ∃ p q r, cell w.panels 2 3 = some p ∧ cell w.panels 3 3 = some q ∧ cell w.panels 2 4 = some r ∧
      p.isLeadingEdge = false ∧ p.isTrailingEdge = false ∧ p.isLeftEdge = false ∧ p.isRightEdge = false ∧
      p.backLeft = q.frontLeft ∧ p.backRight = q.frontRight ∧ p.frontRight = r.frontLeft ∧
      r.frontLeft = reflectPointAcrossPlane p.frontRight ⟨0, 1, 0⟩ 0 ∧
      r.frontRight = reflectPointAcrossPlane p.frontLeft ⟨0, 1, 0⟩ 0 := by
  obtain ⟨w, hw⟩ := plateWing_accepted
    [plateSection 0 2 0 0 "symmetric" 4 "cosine", plateSection ⟨1, 5, 1⟩ 1 0 0 "symmetric" 4 "cosine"] true 6
    (by norm_num) "cosine" (Or.inl rfl) (by simp) (by simp [plateSection]) (by
      intro s hs
      simp only [List.mem_cons, List.not_mem_nil, or_false] at hs
      rcases hs with rfl | rfl <;> exact ⟨_, _, _, _, _, _, _, rfl, by simp⟩) 0
  have n1 : V3.norm ⟨0, 1, 0⟩ = 1 := by simp [V3.norm, V3.dot]
  have n2 : V3.norm ⟨1, 0, 0⟩ = 1 := by simp [V3.norm, V3.dot]
  obtain ⟨c1, c2, c3, c4, c5⟩ := C18_wing_counts _ _ _ _ _ _ _ w hw
  have c3' : w.numSpanwisePanels = 8 := by rw [c3]; simp [plateSection]
  have hex : ∀ i j, i < 6 → j < 8 → ∃ p, cell w.panels i j = some p := by
    intro i j hi hj
    have hrow : w.panels[i]? = some (w.panels[i]'(by omega)) := List.getElem?_eq_getElem (by omega)
    have := c2 _ (List.getElem_mem (l := w.panels) (n := i) (by omega))
    exact ⟨_, by
      unfold cell
      rw [hrow, Option.bind_some]
      exact List.getElem?_eq_getElem (by omega)⟩
  obtain ⟨p, hp⟩ := hex 2 3 (by norm_num) (by norm_num)
  obtain ⟨q, hq⟩ := hex 3 3 (by norm_num) (by norm_num)
  obtain ⟨r, hr⟩ := hex 2 4 (by norm_num) (by norm_num)
  obtain ⟨f1, f2, f3, f4, _⟩ := C19_flags _ _ _ _ _ _ _ w hw 2 3 p hp
  obtain ⟨a1, a2⟩ := C20_chordwise _ _ _ _ _ _ _ w hw 2 3 p q hp hq
  obtain ⟨b1, _⟩ := C20_spanwise _ _ _ _ _ _ _ w hw 0 (plateSection 0 2 0 0 "symmetric" 4 "cosine").hinge "symmetric"
    (by simp [plateSection]) 2 3 (Or.inr (Or.inl rfl)) p r hp hr
  obtain ⟨m1, m2, _⟩ := C21_mirror _ _ _ _ _ _ w hw (by simp [plateSection]) n1 2 3 p r hp (by rw [c3']; exact hr)
  obtain ⟨ar1, ar2⟩ := C23_wetted_ge_projected _ _ _ _ _ _ _ w hw n1 n2
  refine ⟨w, hw, c1, c3', by rw [c5, c3'], ar1, ar2, p, q, r, hp, hq, hr, ?_, ?_, ?_, ?_, a1, a2, b1, m1, m2⟩
  · rw [← Bool.not_eq_true, f1]; norm_num
  · rw [← Bool.not_eq_true, f2]; norm_num
  · rw [← Bool.not_eq_true, f3]; norm_num
  · rw [← Bool.not_eq_true, f4, c3']; norm_num

/-- C23: the mean aerodynamic chord of that wing is between its chords, and at least its standard mean chord, 3/2. -/
example : ∃ w, Wing.create [plateSection 0 2 0 0 "symmetric" 4 "cosine", plateSection ⟨1, 5, 1⟩ 1 0 0 "symmetric" 4 "cosine"]
      0 ⟨0, 1, 0⟩ true ⟨1, 0, 0⟩ 6 "cosine" = .ok w ∧
    w.standardMeanChord = 3 / 2 ∧ 3 / 2 ≤ w.meanAerodynamicChord ∧ w.meanAerodynamicChord ≤ 2 := by
  obtain ⟨w, hw⟩ := plateWing_accepted
    [plateSection 0 2 0 0 "symmetric" 4 "cosine", plateSection ⟨1, 5, 1⟩ 1 0 0 "symmetric" 4 "cosine"] true 6
    (by norm_num) "cosine" (Or.inl rfl) (by simp) (by simp [plateSection]) (by
      intro s hs
      simp only [List.mem_cons, List.not_mem_nil, or_false] at hs
      rcases hs with rfl | rfl <;> exact ⟨_, _, _, _, _, _, _, rfl, by simp⟩) 0
  have n1 : V3.norm ⟨0, 1, 0⟩ = 1 := by simp [V3.norm, V3.dot]
  have n2 : V3.norm ⟨1, 0, 0⟩ = 1 := by simp [V3.norm, V3.dot]
  have hstraight : flatPlate.addControlSurface 0 (1 / 2) = .ok flatPlate := by
    rw [flatPlate_flap 0 _ (by simp) (by norm_num) (by norm_num)]
    simp [flapTip, radians, bentPlate, flatPlate]
  have hU : Untwisted ⟨0, 1, 0⟩
      [plateSection 0 2 0 0 "symmetric" 4 "cosine", plateSection ⟨1, 5, 1⟩ 1 0 0 "symmetric" 4 "cosine"] := by
    refine ⟨?_, ?_, ?_, ?_, ?_, ?_, ?_, ?_⟩ <;> intro s hs <;>
      simp only [List.mem_cons, List.not_mem_nil, or_false] at hs <;> rcases hs with rfl | rfl
    all_goals first
      | (simp [plateSection, flatPlate, Airfoil.Regular]; done)
      | exact ⟨rfl, fun t ht => by
          simp only [List.mem_cons, List.not_mem_nil, or_false] at ht
          rcases ht with rfl | rfl <;> exact hstraight⟩
  have harea := C23_projected_area_is_trapezoidal _ _ _ _ _ _ _ w hw n1 n2 hU
  obtain ⟨hs, ha⟩ := Wing.create_ok _ _ _ _ _ _ _ w hw
  have h15 : trapezoidArea w = 15 := by
    unfold trapezoidArea
    rw [ha.stored, hs]
    simp [withChordwise, sectionSpan, plateSection, V3.dot]
    norm_num
  have hn : w.spec.unitNormal.norm = 1 := by rw [hs]; exact n1
  have hbetween := C23_mac_between w 1 2 (by norm_num) hn (by
    intro s hs'
    rw [ha.stored] at hs'
    simp only [withChordwise, List.map_cons, List.map_nil, List.mem_cons, List.not_mem_nil, or_false] at hs'
    rcases hs' with rfl | rfl <;> simp [plateSection]) harea (by rw [h15]; norm_num)
  have hge := C23_mac_ge_smc w hn (by
    rw [ha.stored, hs]
    simp [withChordwise, plateSection, V3.dot]) harea (by rw [h15]; norm_num)
  have hsmc : w.standardMeanChord = 3 / 2 := by
    unfold Wing.standardMeanChord Wing.span
    rw [harea, h15, ha.stored, hs]
    simp only [withChordwise, List.map_cons, List.map_nil, plateSection, List.head?_cons, List.getLast?_cons_cons,
      List.getLast?_singleton, Wing.projectedSpan, V3.norm, V3.dot, V3.smul_x, V3.smul_y, V3.smul_z, V3.sub_x, V3.sub_y,
      V3.sub_z]
    norm_num
    rw [show (25 : ℝ) = 5 ^ 2 by norm_num, Real.sqrt_sq (by norm_num)]
    norm_num
  exact ⟨w, hw, hsmc, hsmc ▸ hge, hbetween.2⟩

/-- C33, C34, C35 and C38: the square plate in a stream from below, solved by both steady solvers, any number of times;
its vortices are not zero. -/
example (op : OperatingPoint) (hd : |op.freestreamDirection.y| ≤ op.freestreamDirection.x)
    (hup : op.freestreamVelocity.z ≠ 0) (n : ℕ) :
    ∃ (a : Airplane) (p : Panel) (s : HorseshoeSolver) (t : RingSolver), (∀ b ∈ [a], b.Made) ∧
      panelAt [a] ⟨0, 0, 0, 0⟩ = some p ∧ (HorseshoeSolver.create ⟨[a], op⟩).run = .ok s ∧
      (RingSolver.create ⟨[a], op⟩).run = .ok t ∧
      (∃ v u, s.solutionVelocity [p.collocationPoint] = [u] ∧ u.dot p.unitNormal = 0 ∧
        (s.heap ⟨0, 0, 0, 0⟩).horseshoe = some v ∧ v.strength ≠ 0 ∧
        ∃ L w, (s.heap ⟨0, 0, 0, 0⟩).loads = some L ∧
          L.forceGeometry = kuttaJoukowski op.density v.strength w
            (p.frontLeftVortexVertex - p.frontRightVortexVertex)) ∧
      (∃ u Γ, t.solutionVelocity [p.collocationPoint] = [u] ∧ u.dot p.unitNormal = 0 ∧ t.strengths = [Γ] ∧ Γ ≠ 0) ∧
      ∃ s', runTimes HorseshoeSolver.run (n + 1) (HorseshoeSolver.create ⟨[a], op⟩) = .ok s' ∧
        s'.strengths = s.strengths := by
  obtain ⟨a, hmade, hrefs, hp, hspan, _⟩ := plate_airplane
  have hm : ∀ b ∈ [a], b.Made := by simpa using hmade
  obtain ⟨s, hs, hs'⟩ := plate_horseshoe_run (op := op) hmade hrefs hp hspan hd .fresh []
  obtain ⟨t, ht, ht'⟩ := plate_ring_run (op := op) hmade hrefs hp hspan hd .fresh []
  obtain ⟨u, hu, hu'⟩ := C33_horseshoe ⟨[a], op⟩ hm .fresh [] s hs _ _ hp
  obtain ⟨u', hv, hv'⟩ := C33_ring ⟨[a], op⟩ hm .fresh [] t ht _ _ hp
  obtain ⟨L, v, w, l1, l2, _, l3, _⟩ := C35_horseshoe ⟨[a], op⟩ hm .fresh [] s hs _ _ a hp rfl
  obtain ⟨hen, hlen, hslot⟩ := C38_horseshoe ⟨[a], op⟩ hm .fresh [] s hs
  obtain ⟨z, hz, hz', _⟩ := C34_horseshoe ⟨[a], op⟩ hm .fresh [] s hs n
  have hv0 : v.strength ≠ 0 := by
    rw [hs'] at hlen
    obtain ⟨slot, hsl⟩ := List.length_eq_one_iff.mp hlen.symm
    obtain ⟨p', a', v', Γ, e1, _, e2, e3, hrest⟩ := hslot 0 slot (by rw [hsl]; rfl)
    have : slot.panel = ⟨0, 0, 0, 0⟩ := by
      have := (mem_panelRefs [a] slot.panel).mpr ⟨p', e1⟩
      rwa [hrefs, List.mem_singleton] at this
    rw [this, l2] at e2
    obtain rfl := Option.some.inj e2
    rw [hrest.2.2.2.2.2.2.2.2.2.2.2.2.1]
    rw [hs'] at e3
    obtain rfl := Option.some.inj e3
    exact div_ne_zero (neg_ne_zero.mpr hup) (plateHorseshoe_pos _ hd).ne'
  exact ⟨a, _, s, t, hm, hp, hs, ht, ⟨v, u, hu, hu', l2, hv0, L, w, l1, l3⟩,
    ⟨u', _, hv, hv', ht', div_ne_zero (neg_ne_zero.mpr hup) (plate_total_pos _ hd).ne'⟩, z, hz, hz'⟩

end Ptera
