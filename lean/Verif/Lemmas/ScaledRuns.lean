import Verif.Lemmas.ScaledWing
import Verif.Lemmas.SimilarTotals

/-! Runs of the steady solvers on airplanes in another unit of length. -/

namespace Ptera

open List

variable {ℓ : ℝ}

/-! ## Geometry -/

theorem Panel.scale_points (p : Panel) :
    (p.scale ℓ).frontLeftVortexVertex = ℓ • p.frontLeftVortexVertex ∧
    (p.scale ℓ).frontRightVortexVertex = ℓ • p.frontRightVortexVertex ∧
    (p.scale ℓ).collocationPoint = ℓ • p.collocationPoint := by
  simp only [Panel.frontLeftVortexVertex, Panel.frontRightVortexVertex, Panel.collocationPoint, Panel.leftLeg,
    Panel.rightLeg, Panel.scale]
  refine ⟨?_, ?_, ?_⟩ <;> module

theorem Panel.scale_normal (hℓ : 0 < ℓ) (p : Panel) : (p.scale ℓ).unitNormal = p.unitNormal := by
  have hc : (p.scale ℓ).crossDiagonals = (ℓ * ℓ) • p.crossDiagonals := by
    simp only [Panel.crossDiagonals, Panel.firstDiagonal, Panel.secondDiagonal, Panel.scale, ← smul_sub, V3.smul_cross,
      V3.cross_smul, smul_smul]
  have h2 : 0 < ℓ * ℓ := mul_pos hℓ hℓ
  unfold Panel.unitNormal
  rw [hc, V3.norm_smul, abs_of_pos h2, smul_smul]
  congr 1
  have := h2.ne'
  by_cases h0 : p.crossDiagonals.norm = 0
  · simp [h0]
  · field_simp

section

variable (ℓ) (as : List Airplane)

theorem wingAt_scale (r : PanelRef) : wingAt (as.map (Airplane.scale ℓ)) r = (wingAt as r).map (Wing.scale ℓ) := by
  unfold wingAt
  rw [List.getElem?_map]
  cases as[r.airplane]? with
  | none => rfl
  | some a => simp [Airplane.scale]

theorem panelAt_scale (r : PanelRef) : panelAt (as.map (Airplane.scale ℓ)) r = (panelAt as r).map (Panel.scale ℓ) := by
  unfold panelAt
  rw [wingAt_scale]
  cases wingAt as r with
  | none => rfl
  | some w =>
    simp only [Option.map_some, Option.bind_some, Wing.scale, scalePanels, List.getElem?_map]
    cases w.panels[r.row]? with
    | none => rfl
    | some row => simp

theorem geometryOf_scale (r : PanelRef) :
    geometryOf (as.map (Airplane.scale ℓ)) r = (geometryOf as r).scale ℓ := by
  unfold geometryOf
  rw [panelAt_scale]
  cases panelAt as r with
  | none => simp [noPanel, Panel.scale]
  | some p => rfl

theorem panelRefs_scale : panelRefs (as.map (Airplane.scale ℓ)) = panelRefs as := by
  unfold panelRefs
  rw [List.zipIdx_map, List.flatMap_map]
  congr 1
  funext a
  simp only [airplaneRefs, Airplane.scale, Prod.map]
  rw [List.zipIdx_map, List.flatMap_map]
  simp only [Prod.map, Wing.scale, scalePanels]
  congr 1
  funext w
  rw [List.zipIdx_map, List.flatMap_map]
  simp

theorem span_scale (hℓ : 0 < ℓ) (r : PanelRef) :
    ((wingAt (as.map (Airplane.scale ℓ)) r).map (·.span)).getD 0 = ℓ * ((wingAt as r).map (·.span)).getD 0 := by
  rw [wingAt_scale]
  cases wingAt as r with
  | none => simp
  | some w => simp [Wing.scale_span hℓ]

theorem ringBack_scale (r : PanelRef) :
    RingSolver.backLeftVertex (as.map (Airplane.scale ℓ)) r = ℓ • RingSolver.backLeftVertex as r ∧
    RingSolver.backRightVertex (as.map (Airplane.scale ℓ)) r = ℓ • RingSolver.backRightVertex as r := by
  unfold RingSolver.backLeftVertex RingSolver.backRightVertex
  simp only [geometryOf_scale]
  have e : ((geometryOf as r).scale ℓ).isTrailingEdge = (geometryOf as r).isTrailingEdge := rfl
  rw [e]
  by_cases hb : (geometryOf as r).isTrailingEdge
  · simp only [hb, if_true, (Panel.scale_points _).1, (Panel.scale_points _).2.1]
    simp only [Panel.scale]
    constructor <;> module
  · simp only [hb, Bool.false_eq_true, if_false]
    exact ⟨(Panel.scale_points _).1, (Panel.scale_points _).2.1⟩

end

/-! ## Velocities -/

theorem entry_scaled (hℓ : 0 < ℓ) (a b q : V3)
    (h : (a - q).cross (b - q) = 0 ∨ (NearFilament (ℓ • a) (ℓ • b) (ℓ • q) ↔ NearFilament a b q)) :
    expandedEntry 0 ⟨ℓ • a, ℓ • b, 1, 0⟩ (ℓ • q) = ℓ⁻¹ • expandedEntry 0 ⟨a, b, 1, 0⟩ q := by
  rw [expandedEntry_eq, expandedEntry_eq]
  have hx : (ℓ • a - ℓ • q).cross (ℓ • b - ℓ • q) = (ℓ * ℓ) • (a - q).cross (b - q) := by
    rw [← smul_sub, ← smul_sub, V3.smul_cross, V3.cross_smul, smul_smul]
  rcases h with h | h
  · simp only [hx, h, smul_zero, ite_self]
  · have h1 : Cutoff ⟨ℓ • a, ℓ • b, 1, 0⟩ (ℓ • q) ↔ Cutoff ⟨a, b, 1, 0⟩ q := h
    by_cases hc : Cutoff ⟨a, b, 1, 0⟩ q
    · rw [if_pos hc, if_pos (h1.mpr hc), smul_zero]
    · rw [if_neg hc, if_neg fun h2 => hc (h1.mp h2)]
      simp only [hx, smul_smul]
      congr 1
      have hcore : ∀ a b : V3, coreRadius 0 ⟨a, b, 1, 0⟩ = 0 := fun a b => coreRadius_age_zero _ _ rfl
      simp only [kernelCoeff, hcore, hx]
      simp only [← smul_sub, V3.norm_smul, V3.smul_dot, V3.dot_smul, abs_of_pos hℓ, abs_of_pos (mul_pos hℓ hℓ)]
      have hne := hℓ.ne'
      by_cases hz : (a - q).norm * (b - q).norm * ((a - q).cross (b - q)).norm ^ 2 = 0
      · have e1 : (a - q).norm * (b - q).norm * (((a - q).cross (b - q)).norm ^ 2 + (b - a).norm ^ 2 * 0 ^ 2) = 0 := by
          rw [zero_pow two_ne_zero, mul_zero, add_zero]; exact hz
        have e2 : ℓ * (a - q).norm * (ℓ * (b - q).norm) * ((ℓ * ℓ * ((a - q).cross (b - q)).norm) ^ 2
            + (ℓ * (b - a).norm) ^ 2 * 0 ^ 2) = 0 := by
          linear_combination (ℓ ^ 6) * hz
        rw [e1, e2]; simp
      · simp only [mul_eq_zero, not_or, pow_eq_zero_iff two_ne_zero] at hz
        obtain ⟨⟨z1, z2⟩, z3⟩ := hz
        rw [zero_pow two_ne_zero, mul_zero, mul_zero, add_zero, add_zero]
        field_simp

theorem unitVelocity_scaled (hℓ : 0 < ℓ) (legs : List (V3 × V3)) (q : V3)
    (h : ∀ l ∈ legs, (l.1 - q).cross (l.2 - q) = 0 ∨ (NearFilament (ℓ • l.1) (ℓ • l.2) (ℓ • q) ↔ NearFilament l.1 l.2 q)) :
    unitVelocity (legs.map fun l => (ℓ • l.1, ℓ • l.2)) (ℓ • q) = ℓ⁻¹ • unitVelocity legs q := by
  unfold unitVelocity
  rw [List.map_map, List.smul_sum, List.map_map]
  congr 1
  apply List.map_congr_left
  intro l hl
  exact entry_scaled hℓ _ _ _ (h l hl)

section

variable {as : List Airplane} {op : OperatingPoint}

theorem horseshoeUnit_scaled (hℓ : 0 < ℓ) {r : PanelRef} {p : Panel} (hp : panelAt as r = some p) {q : V3}
    (h : ∀ l, IsFilament .horseshoe ⟨as, op⟩ l → SameCutOff ℓ l q) :
    HorseshoeSolver.panelUnit ⟨as.map (Airplane.scale ℓ), op⟩ r (ℓ • q)
      = ℓ⁻¹ • HorseshoeSolver.panelUnit ⟨as, op⟩ r q := by
  have hf : ∀ l ∈ ((HorseshoeSolver.create ⟨as, op⟩).panelVortex r).legs, SameCutOff ℓ l q :=
    fun l hl => h l ⟨r, p, hp, hl⟩
  unfold HorseshoeSolver.panelUnit HorseshoeSolver.unit
  rw [← unitVelocity_scaled hℓ]
  · simp only [HorseshoeSolver.slotOf, HorseshoeSolver.panelVortex, HorseshoeSolver.create, HorseshoeVortex.mk',
      LineVortex.mk', horseshoeLegs, geometryOf_scale, span_scale _ _ hℓ, (Panel.scale_points _).1,
      (Panel.scale_points _).2.1, List.map_cons, List.map_nil, smul_add, smul_smul, mul_assoc]
  · intro l hl
    simp only [HorseshoeVortex.legs, List.mem_cons, List.not_mem_nil, or_false] at hf
    simp only [horseshoeLegs, List.mem_cons, List.not_mem_nil, or_false] at hl
    rcases hl with rfl | rfl | rfl
    · exact hf _ (Or.inl rfl)
    · exact hf _ (Or.inr (Or.inl rfl))
    · exact hf _ (Or.inr (Or.inr rfl))

theorem ringUnit_scaled (hℓ : 0 < ℓ) {r : PanelRef} {p : Panel} (hp : panelAt as r = some p) {q : V3}
    (h : ∀ l, IsFilament .ring ⟨as, op⟩ l → SameCutOff ℓ l q) :
    (RingSolver.create ⟨as.map (Airplane.scale ℓ), op⟩).panelUnit r (ℓ • q)
      = ℓ⁻¹ • (RingSolver.create ⟨as, op⟩).panelUnit r q := by
  have hf : ∀ l ∈ (RingSolver.panelRing as r).legs, SameCutOff ℓ l q := fun l hl => h l ⟨r, p, hp, Or.inl hl⟩
  unfold RingSolver.panelUnit
  rw [smul_add, smul_comm ℓ⁻¹]
  obtain ⟨b1, b2⟩ := ringBack_scale ℓ as r
  have hA : (RingSolver.create ⟨as.map (Airplane.scale ℓ), op⟩).airplanes = as.map (Airplane.scale ℓ) := rfl
  have hB : (RingSolver.create ⟨as, op⟩).airplanes = as := rfl
  congr 1
  · unfold RingSolver.unit
    rw [← unitVelocity_scaled hℓ]
    · simp only [hA, hB, ringSlot, RingSolver.panelRing, RingVortex.mk', LineVortex.mk', ringLegs, geometryOf_scale,
        b1, b2, (Panel.scale_points _).1, (Panel.scale_points _).2.1, List.map_cons, List.map_nil]
    · intro l hl
      simp only [RingVortex.legs, List.mem_cons, List.not_mem_nil, or_false] at hf
      simp only [ringLegs, List.mem_cons, List.not_mem_nil, or_false] at hl
      rcases hl with rfl | rfl | rfl | rfl
      · exact hf _ (Or.inr (Or.inr (Or.inr rfl)))
      · exact hf _ (Or.inl rfl)
      · exact hf _ (Or.inr (Or.inl rfl))
      · exact hf _ (Or.inr (Or.inr (Or.inl rfl)))
  · unfold RingSolver.firstTrailing
    have hg : (geometryOf (RingSolver.create ⟨as.map (Airplane.scale ℓ), op⟩).airplanes r).isTrailingEdge
        = (geometryOf (RingSolver.create ⟨as, op⟩).airplanes r).isTrailingEdge := by
      rw [hA, hB, geometryOf_scale]; rfl
    rw [hg]
    by_cases hb : (geometryOf (RingSolver.create ⟨as, op⟩).airplanes r).isTrailingEdge
    · have hf2 : ∀ l ∈ ((RingSolver.create ⟨as, op⟩).panelHorseshoe r).legs, SameCutOff ℓ l q := by
        intro l hl
        rw [hB, geometryOf_eq hp] at hb
        exact h l ⟨r, p, hp, Or.inr ⟨hb, hl⟩⟩
      rw [if_pos hb, if_pos hb]
      simp only [RingSolver.trailingSlot, one_smul]
      unfold RingSolver.unitT
      rw [← unitVelocity_scaled hℓ]
      · simp only [RingSolver.panelHorseshoe, RingSolver.create, HorseshoeVortex.mk', LineVortex.mk', horseshoeLegs,
          span_scale _ _ hℓ, b1, b2, List.map_cons, List.map_nil, smul_add, smul_smul, mul_assoc]
      · intro l hl
        simp only [HorseshoeVortex.legs, List.mem_cons, List.not_mem_nil, or_false] at hf2
        simp only [horseshoeLegs, List.mem_cons, List.not_mem_nil, or_false] at hl
        rcases hl with rfl | rfl | rfl
        · exact hf2 _ (Or.inl rfl)
        · exact hf2 _ (Or.inr (Or.inl rfl))
        · exact hf2 _ (Or.inr (Or.inr rfl))
    · rw [if_neg hb, if_neg hb]
      simp

end

/-! ## The systems -/

/-- A linear system with all coefficients multiplied by `a`. -/
theorem linalgSolve_scaled {α : Type*} [DecidableEq α] {l : List α} (hl : l.Nodup) (A A' : α → α → ℝ) (b b' : α → ℝ)
    {a : ℝ} (ha : a ≠ 0) (hA : ∀ i ∈ l, ∀ j ∈ l, A' i j = a * A i j) (hb : ∀ i ∈ l, b' i = b i) (Γ : α → ℝ)
    (h : linalgSolve (l.map fun i => l.map fun j => A i j) (l.map b) = .ok (l.map Γ)) :
    linalgSolve (l.map fun i => l.map fun j => A' i j) (l.map b') = .ok (l.map fun r => a⁻¹ * Γ r) := by
  have hsum : ∀ (Δ : α → ℝ), ∀ i ∈ l, (l.map fun j => A' i j * Δ j).sum = (l.map fun j => A i j * (a * Δ j)).sum := by
    intro Δ i hi
    congr 1
    apply List.map_congr_left
    intro j hj
    rw [hA i hi j hj]; ring
  have hsol := (linalgSolve_ok h).2
  rw [matVec_values] at hsol
  apply linalgSolve_of_unique
  · refine ⟨by simp, ?_⟩
    rw [matVec_values]
    apply List.map_congr_left
    intro i hi
    rw [hsum _ i hi, hb i hi, ← map_inj_left hsol i hi]
    congr 1
    apply List.map_congr_left
    intro j _
    field_simp
  · intro y hy hm
    obtain ⟨Δ, rfl⟩ := exists_values hl (show y.length = l.length by simpa using hy)
    rw [matVec_values] at hm
    have hΔ : l.map (fun r => a * Δ r) = l.map Γ := by
      apply linalgSolve_unique h
      refine ⟨by simp, ?_⟩
      rw [matVec_values]
      apply List.map_congr_left
      intro i hi
      rw [← hsum _ i hi, map_inj_left hm i hi, hb i hi]
    apply List.map_congr_left
    intro r hr
    rw [← map_inj_left hΔ r hr]
    field_simp

section

variable {as : List Airplane} {op : OperatingPoint}

/-- Runs of the horseshoe solver in another unit of length. -/
theorem horseshoe_scaled (hℓ : 0 < ℓ) (hm : ∀ a ∈ as, a.Made) (hm' : ∀ a ∈ as.map (Airplane.scale ℓ), a.Made)
    (hcut : ∀ l q, IsFilament .horseshoe ⟨as, op⟩ l → IsEvaluated .horseshoe ⟨as, op⟩ q → SameCutOff ℓ l q)
    {heap : PanelHeap} {loads : List AirplaneLoads} {s : HorseshoeSolver}
    (h : (HorseshoeSolver.create ⟨as, op⟩ heap loads).run = .ok s) (heap' : PanelHeap) (loads' : List AirplaneLoads) :
    ∃ s', (HorseshoeSolver.create ⟨as.map (Airplane.scale ℓ), op⟩ heap' loads').run = .ok s' ∧
      (∀ q, (∀ l, IsFilament .horseshoe ⟨as, op⟩ l → SameCutOff ℓ l q) →
        ∃ u, s.solutionVelocity [q] = [u] ∧ s'.solutionVelocity [ℓ • q] = [u]) ∧
      (∀ r p, panelAt as r = some p → ∃ v v' L L', (s.heap r).horseshoe = some v ∧
        (s'.heap r).horseshoe = some v' ∧ v'.strength = ℓ * v.strength ∧
        (s.heap r).loads = some L ∧ (s'.heap r).loads = some L' ∧
        L'.forceGeometry = (ℓ ^ 2) • L.forceGeometry ∧ L'.momentGeometry = (ℓ ^ 3) • L.momentGeometry) := by
  have hne := hℓ.ne'
  obtain ⟨Γ, hΓ, hst, hv⟩ := HorseshoeSolver.run_values hm h
  have hS := linalgSolve_scaled (panelRefs_nodup as) (HorseshoeSolver.coefficient ⟨as, op⟩)
    (HorseshoeSolver.coefficient ⟨as.map (Airplane.scale ℓ), op⟩) (HorseshoeSolver.rhs ⟨as, op⟩)
    (HorseshoeSolver.rhs ⟨as.map (Airplane.scale ℓ), op⟩) (inv_ne_zero hne)
    (by
      intro i hi j hj
      obtain ⟨p, hp⟩ := (mem_panelRefs _ _).mp hi
      obtain ⟨q, hq⟩ := (mem_panelRefs _ _).mp hj
      unfold HorseshoeSolver.coefficient
      simp only [geometryOf_scale, (Panel.scale_points _).2.2, Panel.scale_normal hℓ]
      rw [horseshoeUnit_scaled hℓ hq, V3.smul_dot]
      intro l hl
      exact hcut l _ hl ⟨i, p, hp, Or.inl (by rw [geometryOf_eq hp])⟩)
    (by
      intro i hi
      unfold HorseshoeSolver.rhs
      simp only [geometryOf_scale, Panel.scale_normal hℓ]) Γ hΓ
  have hS2 : linalgSolve ((panelRefs (as.map (Airplane.scale ℓ))).map fun i =>
      (panelRefs (as.map (Airplane.scale ℓ))).map fun j => HorseshoeSolver.coefficient ⟨as.map (Airplane.scale ℓ), op⟩ i j)
      ((panelRefs (as.map (Airplane.scale ℓ))).map (HorseshoeSolver.rhs ⟨as.map (Airplane.scale ℓ), op⟩))
      = .ok ((panelRefs as).map fun r => ℓ⁻¹⁻¹ * Γ r) := by
    rw [panelRefs_scale]; exact hS
  obtain ⟨s', hs'⟩ := HorseshoeSolver.run_of_solve hm' heap' loads' hS2
  obtain ⟨Γ', hΓ', hst', hv'⟩ := HorseshoeSolver.run_values hm' hs'
  have hsc : ∀ r p, panelAt as r = some p → Γ' r = ℓ * Γ r := by
    intro r p hp
    have hr := (mem_panelRefs as r).mpr ⟨p, hp⟩
    have e := hS2.symm.trans hΓ'
    simp only [panelRefs_scale] at e
    rw [← map_inj_left (Except.ok.inj e) r hr, inv_inv]
  have hvel : ∀ q, (∀ l, IsFilament .horseshoe ⟨as, op⟩ l → SameCutOff ℓ l q) →
      ∃ u, s.solutionVelocity [q] = [u] ∧ s'.solutionVelocity [ℓ • q] = [u] := by
    intro q hq
    refine ⟨_, hv q, ?_⟩
    rw [hv']
    simp only [panelRefs_scale]
    congr 3
    apply List.map_congr_left
    intro r hr
    obtain ⟨p, hp⟩ := (mem_panelRefs _ _).mp hr
    rw [hsc r p hp, horseshoeUnit_scaled hℓ hp hq, smul_smul]
    congr 1
    field_simp
  refine ⟨s', hs', hvel, ?_⟩
  intro r p hp
  obtain ⟨A, w, hA, -, -⟩ := panelAt_cell hp
  have hp' : panelAt (as.map (Airplane.scale ℓ)) r = some (p.scale ℓ) := by rw [panelAt_scale, hp]; rfl
  have hA' : (as.map (Airplane.scale ℓ))[r.airplane]? = some (A.scale ℓ) := by rw [List.getElem?_map, hA]; rfl
  obtain ⟨L, v, u, h1, h2, h3, h4, h5⟩ := C35_horseshoe _ hm heap loads s h r p A hp hA
  obtain ⟨L', v', u', g1, g2, g3, g4, g5⟩ := C35_horseshoe _ hm' heap' loads' s' hs' r _ _ hp' hA'
  obtain ⟨e1, e2, -⟩ := p.scale_points (ℓ := ℓ)
  have hstr : v'.strength = ℓ * v.strength := by
    obtain ⟨w1, hw1, hw2⟩ := hst r p hp
    obtain ⟨w3, hw3, hw4⟩ := hst' r _ hp'
    rw [h2] at hw1; cases hw1
    rw [g2] at hw3; cases hw3
    rw [hw2, hw4, hsc r p hp]
  have hcen : (1 / 2 : ℝ) • ((p.scale ℓ).frontRightVortexVertex + (p.scale ℓ).frontLeftVortexVertex)
      = ℓ • ((1 / 2 : ℝ) • (p.frontRightVortexVertex + p.frontLeftVortexVertex)) := by
    rw [e1, e2]; module
  have hu : u' = u := by
    obtain ⟨u₁, k1, k2⟩ := hvel ((1 / 2 : ℝ) • (p.frontRightVortexVertex + p.frontLeftVortexVertex)) (by
      intro l hl
      refine hcut l _ hl ⟨r, p, hp, Or.inr ?_⟩
      simp only [HorseshoeSolver.panelVortex, HorseshoeSolver.create, HorseshoeVortex.mk', LineVortex.mk',
        geometryOf_eq hp]
      module)
    rw [h3] at k1
    rw [← hcen, g3] at k2
    have := List.cons.inj k1
    have := List.cons.inj k2
    simp_all
  have hF : L'.forceGeometry = (ℓ ^ 2) • L.forceGeometry := by
    rw [g4, h4, hstr, e1, e2, hu]
    unfold kuttaJoukowski
    rw [← smul_sub, V3.cross_smul, smul_smul, smul_smul]
    congr 1
    ring
  refine ⟨v, v', L, L', h2, g2, hstr, h1, g1, hF, ?_⟩
  rw [g5, h5, hF, hcen]
  simp only [Airplane.scale]
  rw [← smul_sub, V3.cross_smul, V3.smul_cross, smul_smul]
  congr 1

theorem nets_scaled {h h' : PanelHeap}
    (hst : ∀ r p, panelAt as r = some p →
      strengthAt (as.map (Airplane.scale ℓ)) h' r = ℓ * strengthAt as h r) (r : PanelRef) :
    netFront (as.map (Airplane.scale ℓ)) h' r = ℓ * netFront as h r ∧
    netLeft (as.map (Airplane.scale ℓ)) h' r = ℓ * netLeft as h r ∧
    netRight (as.map (Airplane.scale ℓ)) h' r = ℓ * netRight as h r := by
  have hall : ∀ r, strengthAt (as.map (Airplane.scale ℓ)) h' r = ℓ * strengthAt as h r := by
    intro r
    cases hp : panelAt as r with
    | none =>
      rw [strengthAt_none hp, strengthAt_none (by rw [panelAt_scale, hp]; rfl), mul_zero]
    | some p => exact hst r p hp
  unfold netFront netLeft netRight
  simp only [hall]
  refine ⟨?_, ?_, by ring⟩ <;> split <;> ring

theorem legForce_scaled {s s' : RingSolver} {d net : ℝ} {a b f f' : V3}
    (hvel : ∃ u, s.solutionVelocity [(1 / 2 : ℝ) • (a + b)] = [u] ∧
      s'.solutionVelocity [ℓ • ((1 / 2 : ℝ) • (a + b))] = [u])
    (h : s.IsLegForce d net a b f) (h' : s'.IsLegForce d (ℓ * net) (ℓ • a) (ℓ • b) f') : f' = (ℓ ^ 2) • f := by
  obtain ⟨u, hu, rfl⟩ := h
  obtain ⟨u', hu', rfl⟩ := h'
  have hcen : (1 / 2 : ℝ) • (ℓ • a + ℓ • b) = ℓ • ((1 / 2 : ℝ) • (a + b)) := by module
  have hu2 : u' = u := by
    obtain ⟨u₁, k1, k2⟩ := hvel
    rw [hu] at k1
    rw [← hcen, hu'] at k2
    have := List.cons.inj k1
    have := List.cons.inj k2
    simp_all
  unfold kuttaJoukowski
  rw [hu2, ← smul_sub, V3.cross_smul, smul_smul, smul_smul]
  congr 1
  ring

/-- Runs of the ring solver in another unit of length. -/
theorem ring_scaled (hℓ : 0 < ℓ) (hm : ∀ a ∈ as, a.Made) (hm' : ∀ a ∈ as.map (Airplane.scale ℓ), a.Made)
    (hcut : ∀ l q, IsFilament .ring ⟨as, op⟩ l → IsEvaluated .ring ⟨as, op⟩ q → SameCutOff ℓ l q)
    {heap : PanelHeap} {loads : List AirplaneLoads} {s : RingSolver}
    (h : (RingSolver.create ⟨as, op⟩ heap loads).run = .ok s) (heap' : PanelHeap) (loads' : List AirplaneLoads) :
    ∃ s', (RingSolver.create ⟨as.map (Airplane.scale ℓ), op⟩ heap' loads').run = .ok s' ∧
      (∀ q, (∀ l, IsFilament .ring ⟨as, op⟩ l → SameCutOff ℓ l q) →
        ∃ u, s.solutionVelocity [q] = [u] ∧ s'.solutionVelocity [ℓ • q] = [u]) ∧
      (∀ r p, panelAt as r = some p → ∃ v v' L L', (s.heap r).ring = some v ∧
        (s'.heap r).ring = some v' ∧ v'.strength = ℓ * v.strength ∧
        (s.heap r).loads = some L ∧ (s'.heap r).loads = some L' ∧
        L'.forceGeometry = (ℓ ^ 2) • L.forceGeometry ∧ L'.momentGeometry = (ℓ ^ 3) • L.momentGeometry) := by
  have hne := hℓ.ne'
  obtain ⟨Γ, hΓ, hst, hv⟩ := RingSolver.run_values hm h
  have hS := linalgSolve_scaled (panelRefs_nodup as) (RingSolver.coefficient ⟨as, op⟩)
    (RingSolver.coefficient ⟨as.map (Airplane.scale ℓ), op⟩) (RingSolver.rhs ⟨as, op⟩)
    (RingSolver.rhs ⟨as.map (Airplane.scale ℓ), op⟩) (inv_ne_zero hne)
    (by
      intro i hi j hj
      obtain ⟨p, hp⟩ := (mem_panelRefs _ _).mp hi
      obtain ⟨q, hq⟩ := (mem_panelRefs _ _).mp hj
      unfold RingSolver.coefficient
      simp only [geometryOf_scale, (Panel.scale_points _).2.2, Panel.scale_normal hℓ]
      rw [ringUnit_scaled hℓ hq, V3.smul_dot]
      intro l hl
      exact hcut l _ hl ⟨i, p, hp, Or.inl (by rw [geometryOf_eq hp])⟩)
    (by
      intro i hi
      unfold RingSolver.rhs
      simp only [geometryOf_scale, Panel.scale_normal hℓ]) Γ hΓ
  have hS2 : linalgSolve ((panelRefs (as.map (Airplane.scale ℓ))).map fun i =>
      (panelRefs (as.map (Airplane.scale ℓ))).map fun j => RingSolver.coefficient ⟨as.map (Airplane.scale ℓ), op⟩ i j)
      ((panelRefs (as.map (Airplane.scale ℓ))).map (RingSolver.rhs ⟨as.map (Airplane.scale ℓ), op⟩))
      = .ok ((panelRefs as).map fun r => ℓ⁻¹⁻¹ * Γ r) := by
    rw [panelRefs_scale]; exact hS
  obtain ⟨s', hs'⟩ := RingSolver.run_of_solve hm' heap' loads' hS2
  obtain ⟨Γ', hΓ', hst', hv'⟩ := RingSolver.run_values hm' hs'
  have hsc : ∀ r p, panelAt as r = some p → Γ' r = ℓ * Γ r := by
    intro r p hp
    have hr := (mem_panelRefs as r).mpr ⟨p, hp⟩
    have e := hS2.symm.trans hΓ'
    simp only [panelRefs_scale] at e
    rw [← map_inj_left (Except.ok.inj e) r hr, inv_inv]
  have hvel : ∀ q, (∀ l, IsFilament .ring ⟨as, op⟩ l → SameCutOff ℓ l q) →
      ∃ u, s.solutionVelocity [q] = [u] ∧ s'.solutionVelocity [ℓ • q] = [u] := by
    intro q hq
    refine ⟨_, hv q, ?_⟩
    rw [hv']
    simp only [panelRefs_scale]
    congr 3
    apply List.map_congr_left
    intro r hr
    obtain ⟨p, hp⟩ := (mem_panelRefs _ _).mp hr
    rw [hsc r p hp, ringUnit_scaled hℓ hp hq, smul_smul]
    congr 1
    field_simp
  have hstr : ∀ r p, panelAt as r = some p →
      strengthAt (as.map (Airplane.scale ℓ)) s'.heap r = ℓ * strengthAt as s.heap r := by
    intro r p hp
    have hp' : panelAt (as.map (Airplane.scale ℓ)) r = some (p.scale ℓ) := by rw [panelAt_scale, hp]; rfl
    rw [strengthAt_some hp, strengthAt_some hp', hst r p hp, hst' r _ hp']
    exact hsc r p hp
  refine ⟨s', hs', hvel, ?_⟩
  intro r p hp
  obtain ⟨A, w, hA, -, -⟩ := panelAt_cell hp
  have hp' : panelAt (as.map (Airplane.scale ℓ)) r = some (p.scale ℓ) := by rw [panelAt_scale, hp]; rfl
  have hA' : (as.map (Airplane.scale ℓ))[r.airplane]? = some (A.scale ℓ) := by rw [List.getElem?_map, hA]; rfl
  obtain ⟨L, v, F, Lf, R, h1, h2, h3, h4, h5, h6, h7⟩ := C35_ring _ hm heap loads s h r p A hp hA
  obtain ⟨L', v', F', Lf', R', g1, g2, g3, g4, g5, g6, g7⟩ := C35_ring _ hm' heap' loads' s' hs' r _ _ hp' hA'
  obtain ⟨n1, n2, n3⟩ := nets_scaled hstr r
  have hv1 := hst r p hp
  have hv2 := hst' r _ hp'
  rw [h2] at hv1
  rw [g2] at hv2
  cases hv1
  cases hv2
  obtain ⟨b1, b2⟩ := ringBack_scale ℓ as r
  have e : let x := RingSolver.panelRing as r
      let y := RingSolver.panelRing (as.map (Airplane.scale ℓ)) r
      y.frontLeft = ℓ • x.frontLeft ∧ y.frontRight = ℓ • x.frontRight ∧ y.backLeft = ℓ • x.backLeft ∧
        y.backRight = ℓ • x.backRight := by
    simp only [RingSolver.panelRing, RingVortex.mk', geometryOf_scale]
    exact ⟨(Panel.scale_points _).1, (Panel.scale_points _).2.1, b1, b2⟩
  obtain ⟨e1, e2, e3, e4⟩ := e
  simp only [RingVortex.updateStrength] at h3 h4 h5 h7 g3 g4 g5 g7
  simp only [n1, n2, n3, e1, e2, e3, e4] at g3 g4 g5
  have hat : ∀ q, (q = (RingSolver.panelRing as r).frontLeg.center ∨ q = (RingSolver.panelRing as r).leftLeg.center ∨
      q = (RingSolver.panelRing as r).rightLeg.center) →
      ∃ u, s.solutionVelocity [q] = [u] ∧ s'.solutionVelocity [ℓ • q] = [u] :=
    fun q hq => hvel q fun l hl => hcut l q hl ⟨r, p, hp, Or.inr hq⟩
  have hF : F' = (ℓ ^ 2) • F := legForce_scaled (hat _ (Or.inl (by
    simp only [RingSolver.panelRing, RingVortex.mk', LineVortex.mk']; module))) h3 g3
  have hL : Lf' = (ℓ ^ 2) • Lf := legForce_scaled (hat _ (Or.inr (Or.inl (by
    simp only [RingSolver.panelRing, RingVortex.mk', LineVortex.mk']; module)))) h4 g4
  have hR : R' = (ℓ ^ 2) • R := legForce_scaled (hat _ (Or.inr (Or.inr (by
    simp only [RingSolver.panelRing, RingVortex.mk', LineVortex.mk']; module)))) h5 g5
  have href' : ∀ x y f : V3, ((1 / 2 : ℝ) • (ℓ • x + ℓ • y) - ℓ • A.xyzRef).cross ((ℓ ^ 2) • f)
      = (ℓ ^ 3) • ((1 / 2 : ℝ) • (x + y) - A.xyzRef).cross f := by
    intro x y f
    rw [show (1 / 2 : ℝ) • (ℓ • x + ℓ • y) - ℓ • A.xyzRef = ℓ • ((1 / 2 : ℝ) • (x + y) - A.xyzRef) by module,
      V3.cross_smul, V3.smul_cross, smul_smul]
    congr 1
  refine ⟨_, _, L, L', h2, g2, hsc r p hp, h1, g1, ?_, ?_⟩
  · rw [g6, h6, hF, hL, hR]; module
  · rw [g7, h7, e1, e2, e3, e4, hF, hL, hR]
    simp only [Airplane.scale, href']
    rw [smul_add (ℓ ^ 3), smul_add (ℓ ^ 3)]

end

end Ptera
