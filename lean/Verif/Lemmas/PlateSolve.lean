import Verif.Lemmas.PlateRun
import Verif.Lemmas.NoPenetration
import Verif.Lemmas.Loads
import Verif.Props.Frames

/-! A square flat plate with a single panel: both steady solvers solve it. Concrete case for their theorems. -/

namespace Ptera

open Real

/-! ## Signs of the Biot–Savart kernel -/

theorem entry_nonneg (A B p n : V3) (h : 0 ≤ ((A - p).cross (B - p)).dot n) :
    0 ≤ (expandedEntry 0 ⟨A, B, 1, 0⟩ p).dot n := by
  rw [expandedEntry_eq]
  split
  · simp
  · rw [V3.smul_dot]
    refine mul_nonneg ?_ h
    unfold kernelCoeff
    have h1 := V3.norm_nonneg (A - p)
    have h2 := V3.norm_nonneg (B - p)
    have h3 := V3.dot_le (A - p) (B - p)
    have := Real.pi_pos
    have h4 : 0 ≤ (A - p).norm * (B - p).norm - (A - p).dot (B - p) := by linarith
    positivity

theorem entry_pos (A B p n : V3) (h : 0 < ((A - p).cross (B - p)).dot n) (hc : ¬ Cutoff ⟨A, B, 1, 0⟩ p) :
    0 < (expandedEntry 0 ⟨A, B, 1, 0⟩ p).dot n := by
  rw [expandedEntry_eq, if_neg hc, V3.smul_dot]
  refine mul_pos ?_ h
  have he := eps_pos
  unfold Cutoff at hc
  push Not at hc
  obtain ⟨c1, c2, c3⟩ := hc
  simp only at c1 c2 c3
  have h1 : 0 < (A - p).norm := lt_of_lt_of_le he c1
  have h2 : 0 < (B - p).norm := lt_of_lt_of_le he c2
  have h3 : 0 < ((A - p).cross (B - p)).norm ^ 2 := lt_of_lt_of_le he c3
  have h4 : 0 < (A - p).norm * (B - p).norm - (A - p).dot (B - p) := by
    have e := V3.norm_cross_sq (A - p) (B - p)
    by_contra hcon
    push Not at hcon
    have hp : 0 < (A - p).norm * (B - p).norm := mul_pos h1 h2
    nlinarith [V3.dot_le (A - p) (B - p)]
  unfold kernelCoeff
  have := Real.pi_pos
  have h5 : 0 ≤ (B - A).norm ^ 2 * coreRadius 0 ⟨A, B, 1, 0⟩ ^ 2 := by positivity
  have h6 : 0 < ((A - p).cross (B - p)).norm ^ 2 + (B - A).norm ^ 2 * coreRadius 0 ⟨A, B, 1, 0⟩ ^ 2 := by linarith
  simp only
  positivity

theorem entry_reverse (A B p : V3) :
    expandedEntry 0 ⟨A, B, 1, 0⟩ p + expandedEntry 0 ⟨B, A, 1, 0⟩ p = 0 := by
  have hc : Cutoff ⟨A, B, 1, 0⟩ p ↔ Cutoff ⟨B, A, 1, 0⟩ p := by
    unfold Cutoff
    simp only
    rw [V3.cross_anticomm (A - p), V3.norm_neg]
    tauto
  have hk : kernelCoeff 0 ⟨A, B, 1, 0⟩ p = kernelCoeff 0 ⟨B, A, 1, 0⟩ p := by
    unfold kernelCoeff coreRadius
    simp only
    rw [V3.cross_anticomm (A - p), V3.norm_neg, V3.norm_sub_comm A B, V3.dot_comm (A - p)]
    ring
  rw [expandedEntry_eq, expandedEntry_eq]
  by_cases h : Cutoff ⟨A, B, 1, 0⟩ p
  · rw [if_pos h, if_pos (hc.mp h), add_zero]
  · rw [if_neg h, if_neg (fun h' => h (hc.mpr h')), hk, V3.cross_anticomm (A - p)]
    ext <;> simp

/-! ## The plate -/

/-- The panel of the plate: the unit square. -/
def unitSquare : Panel :=
  { frontLeft := ⟨0, 0, 0⟩, frontRight := ⟨0, 1, 0⟩, backLeft := ⟨1, 0, 0⟩, backRight := ⟨1, 1, 0⟩
    isLeadingEdge := true, isTrailingEdge := true, isRightEdge := true, isLeftEdge := true
    localChordwise := 0, localSpanwise := 0 }

theorem unitSquare_normal : unitSquare.unitNormal = ⟨0, 0, 1⟩ := by
  have : unitSquare.crossDiagonals = ⟨0, 0, 2⟩ := by
    ext <;> simp [Panel.crossDiagonals, Panel.firstDiagonal, Panel.secondDiagonal, unitSquare]
    norm_num
  unfold Panel.unitNormal
  rw [this]
  have hn : (⟨0, 0, 2⟩ : V3).norm = 2 := by
    simp only [V3.norm, V3.dot]
    rw [show (0 * 0 + 0 * 0 + 2 * 2 : ℝ) = 2 ^ 2 by norm_num, Real.sqrt_sq (by norm_num)]
  rw [hn]
  ext <;> simp

theorem unitSquare_points : unitSquare.collocationPoint = ⟨3 / 4, 1 / 2, 0⟩ ∧
    unitSquare.frontRightVortexVertex = ⟨1 / 4, 1, 0⟩ ∧ unitSquare.frontLeftVortexVertex = ⟨1 / 4, 0, 0⟩ := by
  refine ⟨?_, ?_, ?_⟩ <;> ext <;>
    simp [Panel.collocationPoint, Panel.frontRightVortexVertex, Panel.frontLeftVortexVertex, Panel.rightLeg,
      Panel.leftLeg, unitSquare] <;> norm_num

/-- An airplane whose only wing is a square flat plate with a single panel, with any reference area. -/
theorem plate_airplane_at (S : ℝ) (ref : V3) : ∃ a : Airplane, a.Made ∧ panelRefs [a] = [⟨0, 0, 0, 0⟩] ∧
    panelAt [a] ⟨0, 0, 0, 0⟩ = some unitSquare ∧ (wingAt [a] ⟨0, 0, 0, 0⟩).map (·.span) = some 1 ∧
    a.sRef = S ∧ a.cRef = 1 ∧ a.bRef = 1 ∧ a.xyzRef = ref := by
  obtain ⟨w, _, hmade, hn, hl, hspan, hcell⟩ := strip_wing 0 1 [0, 1] (by simp) rfl
  refine ⟨{ wings := [w], xyzRef := ref, weight := 0, sRef := S, cRef := 1, bRef := 1
            numPanels := ([w].map (·.numPanels)).sum },
    ⟨[w], ref, 0, some S, some 1, some 1, rfl, by simpa using hmade⟩, ?_, ?_, ?_, rfl, rfl, rfl, rfl⟩
  · obtain ⟨_, _, _, _, _, _, _, hw⟩ := hmade
    have h2 := (C18_wing_counts _ _ _ _ _ _ _ w hw).2.1
    obtain ⟨row, hrow⟩ := List.length_eq_one_iff.mp hl
    have hr : row.length = 1 := by
      have := h2 row (by rw [hrow]; simp)
      rw [this, hn]
      rfl
    simp [panelRefs, airplaneRefs, hrow, hr, List.zipIdx]
  · have := hcell 0 0 1 rfl rfl
    simp only [panelAt, wingAt]
    unfold cell at this
    simpa [stripPanel, unitSquare] using this
  · simp [wingAt, hspan]

/-- An airplane whose only wing is a square flat plate with a single panel. -/
theorem plate_airplane_of (S : ℝ) : ∃ a : Airplane, a.Made ∧ panelRefs [a] = [⟨0, 0, 0, 0⟩] ∧
    panelAt [a] ⟨0, 0, 0, 0⟩ = some unitSquare ∧ (wingAt [a] ⟨0, 0, 0, 0⟩).map (·.span) = some 1 ∧
    a.sRef = S ∧ a.cRef = 1 ∧ a.bRef = 1 ∧ a.xyzRef = 0 := plate_airplane_at S 0

theorem plate_airplane : ∃ a : Airplane, a.Made ∧ panelRefs [a] = [⟨0, 0, 0, 0⟩] ∧
    panelAt [a] ⟨0, 0, 0, 0⟩ = some unitSquare ∧ (wingAt [a] ⟨0, 0, 0, 0⟩).map (·.span) = some 1 ∧
    a.sRef = 1 ∧ a.cRef = 1 ∧ a.bRef = 1 ∧ a.xyzRef = 0 := plate_airplane_of 1

theorem linalgSolve_one (a b : ℝ) (ha : a ≠ 0) : linalgSolve [[a]] [b] = .ok [b / a] := by
  apply linalgSolve_of_unique
  · constructor
    · rfl
    · simp [matVec]; field_simp
  · intro y hl hm
    obtain ⟨z, rfl⟩ := List.length_eq_one_iff.mp (show y.length = 1 by simpa using hl)
    simp [matVec] at hm
    rw [← hm]
    field_simp

/-- Self-influence of the plate in the horseshoe solver. -/
noncomputable def plateHorseshoe (d : V3) : ℝ :=
  (unitVelocity (horseshoeLegs (⟨1 / 4, 1, 0⟩ + (20 : ℝ) • d) ⟨1 / 4, 1, 0⟩ ⟨1 / 4, 0, 0⟩
    (⟨1 / 4, 0, 0⟩ + (20 : ℝ) • d)) ⟨3 / 4, 1 / 2, 0⟩).dot ⟨0, 0, 1⟩

/-- Self-influence of the ring of the plate in the ring solver. -/
noncomputable def plateRing : ℝ :=
  (unitVelocity (ringLegs ⟨5 / 4, 1, 0⟩ ⟨1 / 4, 1, 0⟩ ⟨1 / 4, 0, 0⟩ ⟨5 / 4, 0, 0⟩) ⟨3 / 4, 1 / 2, 0⟩).dot ⟨0, 0, 1⟩

/-- Influence of the trailing horseshoe of the plate in the ring solver. -/
noncomputable def plateTrailing (d : V3) : ℝ :=
  (unitVelocity (horseshoeLegs (⟨5 / 4, 1, 0⟩ + (20 : ℝ) • d) ⟨5 / 4, 1, 0⟩ ⟨5 / 4, 0, 0⟩
    (⟨5 / 4, 0, 0⟩ + (20 : ℝ) • d)) ⟨3 / 4, 1 / 2, 0⟩).dot ⟨0, 0, 1⟩

theorem front_leg_pos : 0 < (expandedEntry 0 ⟨⟨1 / 4, 1, 0⟩, ⟨1 / 4, 0, 0⟩, 1, 0⟩ ⟨3 / 4, 1 / 2, 0⟩).dot ⟨0, 0, 1⟩ := by
  apply entry_pos
  · simp [V3.dot]; norm_num
  · have he : eps ≤ 1 / 4 := by unfold eps; norm_num
    have hn : ∀ v : V3, v.dot v = 1 / 2 → eps ≤ v.norm := by
      intro v hv
      unfold V3.norm
      rw [hv]
      refine he.trans ?_
      apply Real.le_sqrt_of_sq_le
      norm_num
    unfold Cutoff
    push Not
    refine ⟨hn _ ?_, hn _ ?_, ?_⟩
    · simp [V3.dot]; norm_num
    · simp [V3.dot]; norm_num
    · rw [V3.norm_sq]
      refine he.trans ?_
      simp [V3.dot]; norm_num

theorem plateHorseshoe_pos (d : V3) (h : |d.y| ≤ d.x) : 0 < plateHorseshoe d := by
  obtain ⟨h1, h2⟩ := abs_le.mp h
  have e1 := entry_nonneg (⟨1 / 4, 1, 0⟩ + (20 : ℝ) • d) ⟨1 / 4, 1, 0⟩ ⟨3 / 4, 1 / 2, 0⟩ ⟨0, 0, 1⟩
    (by simp [V3.dot]; linarith)
  have e3 := entry_nonneg ⟨1 / 4, 0, 0⟩ (⟨1 / 4, 0, 0⟩ + (20 : ℝ) • d) ⟨3 / 4, 1 / 2, 0⟩ ⟨0, 0, 1⟩
    (by simp [V3.dot]; linarith)
  have e2 := front_leg_pos
  unfold plateHorseshoe unitVelocity horseshoeLegs
  simp only [List.map_cons, List.map_nil, List.sum_cons, List.sum_nil, add_zero, V3.add_dot]
  linarith

theorem plateRing_pos : 0 < plateRing := by
  have e1 := entry_nonneg ⟨5 / 4, 1, 0⟩ ⟨1 / 4, 1, 0⟩ ⟨3 / 4, 1 / 2, 0⟩ ⟨0, 0, 1⟩ (by simp [V3.dot]; norm_num)
  have e3 := entry_nonneg ⟨1 / 4, 0, 0⟩ ⟨5 / 4, 0, 0⟩ ⟨3 / 4, 1 / 2, 0⟩ ⟨0, 0, 1⟩ (by simp [V3.dot]; norm_num)
  have e4 := entry_nonneg ⟨5 / 4, 0, 0⟩ ⟨5 / 4, 1, 0⟩ ⟨3 / 4, 1 / 2, 0⟩ ⟨0, 0, 1⟩ (by simp [V3.dot]; norm_num)
  have e2 := front_leg_pos
  unfold plateRing unitVelocity ringLegs
  simp only [List.map_cons, List.map_nil, List.sum_cons, List.sum_nil, add_zero, V3.add_dot]
  linarith

theorem plate_total_pos (d : V3) (h : |d.y| ≤ d.x) : 0 < plateRing + plateTrailing d := by
  obtain ⟨h1, h2⟩ := abs_le.mp h
  have e1 := entry_nonneg ⟨5 / 4, 1, 0⟩ ⟨1 / 4, 1, 0⟩ ⟨3 / 4, 1 / 2, 0⟩ ⟨0, 0, 1⟩ (by simp [V3.dot]; norm_num)
  have e3 := entry_nonneg ⟨1 / 4, 0, 0⟩ ⟨5 / 4, 0, 0⟩ ⟨3 / 4, 1 / 2, 0⟩ ⟨0, 0, 1⟩ (by simp [V3.dot]; norm_num)
  have e4 : (expandedEntry 0 ⟨⟨5 / 4, 0, 0⟩, ⟨5 / 4, 1, 0⟩, 1, 0⟩ ⟨3 / 4, 1 / 2, 0⟩).dot ⟨0, 0, 1⟩
      + (expandedEntry 0 ⟨⟨5 / 4, 1, 0⟩, ⟨5 / 4, 0, 0⟩, 1, 0⟩ ⟨3 / 4, 1 / 2, 0⟩).dot ⟨0, 0, 1⟩ = 0 := by
    rw [← V3.add_dot, entry_reverse]
    simp [V3.dot]
  have e2 := front_leg_pos
  have e5 := entry_nonneg (⟨5 / 4, 1, 0⟩ + (20 : ℝ) • d) ⟨5 / 4, 1, 0⟩ ⟨3 / 4, 1 / 2, 0⟩ ⟨0, 0, 1⟩
    (by simp [V3.dot]; linarith)
  have e6 := entry_nonneg ⟨5 / 4, 0, 0⟩ (⟨5 / 4, 0, 0⟩ + (20 : ℝ) • d) ⟨3 / 4, 1 / 2, 0⟩ ⟨0, 0, 1⟩
    (by simp [V3.dot]; linarith)
  unfold plateRing plateTrailing unitVelocity ringLegs horseshoeLegs
  simp only [List.map_cons, List.map_nil, List.sum_cons, List.sum_nil, add_zero, V3.add_dot]
  linarith

/-! ## The runs -/

variable {a : Airplane} (op : OperatingPoint)

theorem plate_geometry (hp : panelAt [a] ⟨0, 0, 0, 0⟩ = some unitSquare) :
    geometryOf [a] ⟨0, 0, 0, 0⟩ = unitSquare := geometryOf_eq hp

/-- The horseshoe solver solves the plate: the strength is minus the normal freestream over the self-influence. -/
theorem plate_horseshoe_run (hmade : a.Made) (hrefs : panelRefs [a] = [⟨0, 0, 0, 0⟩])
    (hp : panelAt [a] ⟨0, 0, 0, 0⟩ = some unitSquare) (hspan : (wingAt [a] ⟨0, 0, 0, 0⟩).map (·.span) = some 1)
    (hd : |op.freestreamDirection.y| ≤ op.freestreamDirection.x) (heap : PanelHeap) (loads : List AirplaneLoads) :
    ∃ s, (HorseshoeSolver.create ⟨[a], op⟩ heap loads).run = .ok s ∧
      s.strengths = [-op.freestreamVelocity.z / plateHorseshoe op.freestreamDirection] := by
  have hc : Counted [a] := counted_of_made (by simpa using hmade)
  have hg := plate_geometry hp
  obtain ⟨g1, g2, g3⟩ := unitSquare_points
  rw [HorseshoeSolver.run_eq _ hc (by simp [HorseshoeSolver.create])]
  have hI : (HorseshoeSolver.create ⟨[a], op⟩ heap loads).finalInfluences
      = [[plateHorseshoe op.freestreamDirection]] := by
    rw [HorseshoeSolver.finalInfluences_eq _ hc]
    unfold HorseshoeSolver.finalSlots
    simp only [HorseshoeSolver.create, hrefs, List.map_cons, List.map_nil]
    simp only [HorseshoeSolver.unit, HorseshoeSolver.slotOf, HorseshoeSolver.panelVortex, HorseshoeVortex.mk',
      LineVortex.mk', hg, g1, g2, g3, unitSquare_normal, hspan, Option.getD_some, one_mul, plateHorseshoe]
  have hF : (HorseshoeSolver.create ⟨[a], op⟩ heap loads).finalFreestream = [op.freestreamVelocity.z] := by
    unfold HorseshoeSolver.finalFreestream HorseshoeSolver.finalSlots
    simp [HorseshoeSolver.create, hrefs, HorseshoeSolver.slotOf, hg, unitSquare_normal, freestreamInfluences, V3.dot]
  rw [hI, hF, List.map_cons, List.map_nil, linalgSolve_one _ _ (plateHorseshoe_pos _ hd).ne']
  exact ⟨_, rfl, rfl⟩

theorem plate_ring_influences (hmade : a.Made) (hrefs : panelRefs [a] = [⟨0, 0, 0, 0⟩])
    (hp : panelAt [a] ⟨0, 0, 0, 0⟩ = some unitSquare) (hspan : (wingAt [a] ⟨0, 0, 0, 0⟩).map (·.span) = some 1)
    (s : RingSolver) (hs : s.airplanes = [a]) (ho : s.operatingPoint = op) (g : ℝ) (hg : s.strengths = [g])
    (ht : s.trailing.length = 1) :
    s.finalInfluences = [[g * plateRing + plateTrailing op.freestreamDirection]] := by
  have hc : Counted [a] := counted_of_made (by simpa using hmade)
  have hgeo := plate_geometry hp
  obtain ⟨g1, g2, g3⟩ := unitSquare_points
  have hte : unitSquare.isTrailingEdge = true := rfl
  have b1 : RingSolver.backLeftVertex [a] ⟨0, 0, 0, 0⟩ = ⟨5 / 4, 0, 0⟩ := by
    unfold RingSolver.backLeftVertex
    simp only [hgeo, hte, if_true, g3]
    ext <;> simp [unitSquare]
    norm_num
  have b2 : RingSolver.backRightVertex [a] ⟨0, 0, 0, 0⟩ = ⟨5 / 4, 1, 0⟩ := by
    unfold RingSolver.backRightVertex
    simp only [hgeo, hte, if_true, g2]
    ext <;> simp [unitSquare]
    norm_num
  obtain ⟨t, ht'⟩ := List.length_eq_one_iff.mp ht
  rw [RingSolver.finalInfluences_eq _ (by rw [hg, RingSolver.finalSlots_length, hs, hrefs]; rfl)]
  unfold RingSolver.finalSlots RingSolver.unitTrailing RingSolver.trailingOf
  rw [hs, hrefs, hg, ht']
  simp only [List.map_cons, List.map_nil, List.zipWith_cons_cons, List.zipWith_nil_left]
  simp only [RingSolver.unit, RingSolver.unitT, ringSlot, RingSolver.panelRing, RingVortex.mk', LineVortex.mk', hgeo,
    hte, if_true, RingSolver.trailingSlot, RingSolver.panelHorseshoe, HorseshoeVortex.mk', hs, ho, g1, g2, g3, b1, b2,
    unitSquare_normal, hspan, Option.getD_some, one_mul, one_smul, V3.add_dot, V3.smul_dot, plateRing, plateTrailing]

theorem plate_ring_freestream (hrefs : panelRefs [a] = [⟨0, 0, 0, 0⟩])
    (hp : panelAt [a] ⟨0, 0, 0, 0⟩ = some unitSquare) (s : RingSolver) (hs : s.airplanes = [a]) :
    s.finalFreestream = [s.freestreamVelocity.z] := by
  have hg := plate_geometry hp
  unfold RingSolver.finalFreestream RingSolver.finalSlots
  simp [hs, hrefs, ringSlot, hg, unitSquare_normal, freestreamInfluences, V3.dot]

/-- The ring solver solves the plate. -/
theorem plate_ring_run (hmade : a.Made) (hrefs : panelRefs [a] = [⟨0, 0, 0, 0⟩])
    (hp : panelAt [a] ⟨0, 0, 0, 0⟩ = some unitSquare) (hspan : (wingAt [a] ⟨0, 0, 0, 0⟩).map (·.span) = some 1)
    (hd : |op.freestreamDirection.y| ≤ op.freestreamDirection.x) (heap : PanelHeap) (loads : List AirplaneLoads) :
    ∃ s, (RingSolver.create ⟨[a], op⟩ heap loads).run = .ok s ∧
      s.strengths = [-op.freestreamVelocity.z / (plateRing + plateTrailing op.freestreamDirection)] := by
  have hc : Counted [a] := counted_of_made (by simpa using hmade)
  have hn : totalPanels [a] = 1 := by rw [← panelRefs_length _ hc, hrefs]; rfl
  rw [RingSolver.run_eq _ hc (by simp [RingSolver.create]) (by simp [RingSolver.create])]
  rw [plate_ring_influences op hmade hrefs hp hspan _ rfl rfl 1 (by simp [RingSolver.create, hn])
    (by simp [RingSolver.create, hn]), one_mul, plate_ring_freestream hrefs hp _ rfl, List.map_cons, List.map_nil,
    linalgSolve_one _ _ (plate_total_pos _ hd).ne']
  exact ⟨_, rfl, rfl⟩

end Ptera
