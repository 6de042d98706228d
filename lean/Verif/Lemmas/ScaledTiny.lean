import Mathlib.Topology.Algebra.Order.Field
import Mathlib.Topology.Order.LeftRightNhds
import Verif.Lemmas.ScaledRuns

/-! Airplanes made so small that every filament is left out. -/

namespace Ptera

open Filter Topology

theorem near_of_small (a b q : V3) : ∀ᶠ ℓ : ℝ in 𝓝[>] 0, NearFilament (ℓ • a) (ℓ • b) (ℓ • q) := by
  have ht : Tendsto (fun ℓ : ℝ => (ℓ * (ℓ * ((a - q).cross (b - q)).norm)) ^ 2) (𝓝[>] 0) (𝓝 0) := by
    apply tendsto_nhdsWithin_of_tendsto_nhds
    have : Continuous fun ℓ : ℝ => (ℓ * (ℓ * ((a - q).cross (b - q)).norm)) ^ 2 := by fun_prop
    simpa using this.tendsto 0
  have he : (0 : ℝ) < eps := by unfold eps; norm_num
  filter_upwards [ht.eventually_lt_const he, self_mem_nhdsWithin] with ℓ h h0
  refine Or.inr (Or.inr ?_)
  simpa only [← smul_sub, V3.smul_cross, V3.cross_smul, V3.norm_smul, abs_of_pos (show (0 : ℝ) < ℓ from h0)] using h

theorem unitVelocity_small (legs : List (V3 × V3)) (q : V3) :
    ∀ᶠ ℓ : ℝ in 𝓝[>] 0, unitVelocity (legs.map fun l => (ℓ • l.1, ℓ • l.2)) (ℓ • q) = 0 := by
  induction legs with
  | nil => simp [unitVelocity]
  | cons l ls ih =>
    filter_upwards [ih, near_of_small l.1 l.2 q] with ℓ h1 h2
    unfold unitVelocity at h1 ⊢
    rw [List.map_cons, List.map_cons, List.sum_cons, h1, expandedEntry_eq,
      if_pos (show Cutoff ⟨ℓ • l.1, ℓ • l.2, 1, 0⟩ (ℓ • q) from h2), add_zero]

section

variable (as : List Airplane) (op : OperatingPoint)

theorem horseshoeUnit_small (r : PanelRef) (q : V3) : ∀ᶠ ℓ : ℝ in 𝓝[>] 0,
    HorseshoeSolver.panelUnit ⟨as.map (Airplane.scale ℓ), op⟩ r (ℓ • q) = 0 := by
  have h := unitVelocity_small (horseshoeLegs
    ((HorseshoeSolver.create ⟨as, op⟩).panelVortex r).rightLeg.origin
    ((HorseshoeSolver.create ⟨as, op⟩).panelVortex r).rightLeg.termination
    ((HorseshoeSolver.create ⟨as, op⟩).panelVortex r).leftLeg.origin
    ((HorseshoeSolver.create ⟨as, op⟩).panelVortex r).leftLeg.termination) q
  filter_upwards [h, self_mem_nhdsWithin] with ℓ h hℓ
  rw [← h]
  unfold HorseshoeSolver.panelUnit HorseshoeSolver.unit
  simp only [HorseshoeSolver.slotOf, HorseshoeSolver.panelVortex, HorseshoeSolver.create, HorseshoeVortex.mk',
      LineVortex.mk', horseshoeLegs, geometryOf_scale, span_scale _ _ hℓ, (Panel.scale_points _).1,
      (Panel.scale_points _).2.1, List.map_cons, List.map_nil, smul_add, smul_smul, mul_assoc]

theorem ringUnit_small (r : PanelRef) (q : V3) : ∀ᶠ ℓ : ℝ in 𝓝[>] 0,
    (RingSolver.create ⟨as.map (Airplane.scale ℓ), op⟩).panelUnit r (ℓ • q) = 0 := by
  have h := unitVelocity_small (ringLegs (RingSolver.panelRing as r).rightLeg.origin
    (RingSolver.panelRing as r).frontLeg.origin (RingSolver.panelRing as r).leftLeg.origin
    (RingSolver.panelRing as r).backLeg.origin) q
  have h2 := unitVelocity_small (horseshoeLegs
    ((RingSolver.create ⟨as, op⟩).panelHorseshoe r).rightLeg.origin
    ((RingSolver.create ⟨as, op⟩).panelHorseshoe r).rightLeg.termination
    ((RingSolver.create ⟨as, op⟩).panelHorseshoe r).leftLeg.origin
    ((RingSolver.create ⟨as, op⟩).panelHorseshoe r).leftLeg.termination) q
  filter_upwards [h, h2, self_mem_nhdsWithin] with ℓ h h2 hℓ
  obtain ⟨b1, b2⟩ := ringBack_scale ℓ as r
  have hA : (RingSolver.create ⟨as.map (Airplane.scale ℓ), op⟩).airplanes = as.map (Airplane.scale ℓ) := rfl
  have e1 : RingSolver.unit (ringSlot (as.map (Airplane.scale ℓ)) r (RingSolver.panelRing (as.map (Airplane.scale ℓ)) r))
      (ℓ • q) = 0 := by
    rw [← h]
    unfold RingSolver.unit
    simp only [ringSlot, RingSolver.panelRing, RingVortex.mk', LineVortex.mk', ringLegs, geometryOf_scale,
        b1, b2, (Panel.scale_points _).1, (Panel.scale_points _).2.1, List.map_cons, List.map_nil]
  unfold RingSolver.panelUnit
  rw [hA, e1, zero_add]
  unfold RingSolver.firstTrailing
  split
  · simp only [RingSolver.trailingSlot, one_smul]
    rw [← h2]
    unfold RingSolver.unitT
    simp only [RingSolver.panelHorseshoe, RingSolver.create, HorseshoeVortex.mk', LineVortex.mk', horseshoeLegs,
          span_scale _ _ hℓ, b1, b2, List.map_cons, List.map_nil, smul_add, smul_smul, mul_assoc]
  · simp

end

/-- A system whose coefficients are all zero has no unique solution. -/
theorem linalgSolve_degenerate {α : Type} {l : List α} (hl : l ≠ []) {A : α → α → ℝ} (hA : ∀ i ∈ l, ∀ j ∈ l, A i j = 0)
    (b : List ℝ) : linalgSolve (l.map fun i => l.map fun j => A i j) b = .error .linAlgError := by
  cases h : linalgSolve (l.map fun i => l.map fun j => A i j) b with
  | error e => rw [linalgSolve_error h]
  | ok x =>
    exfalso
    have hAA : (l.map fun i => l.map fun j => A i j) = l.map fun _ => l.map fun _ => 0 :=
      List.map_congr_left fun i hi => List.map_congr_left fun j hj => hA i hi j hj
    rw [hAA] at h
    obtain ⟨-, h2⟩ := linalgSolve_ok h
    have hz : ∀ y : List ℝ, matVec (l.map fun _ => l.map fun _ => (0 : ℝ)) y = l.map fun _ => 0 := by
      intro y
      unfold matVec
      rw [List.map_map]
      apply List.map_congr_left
      intro i _
      simp only [Function.comp]
      apply List.sum_eq_zero
      intro z hz
      rw [List.mem_iff_getElem?] at hz
      obtain ⟨n, hn⟩ := hz
      rw [List.getElem?_zipWith_eq_some] at hn
      obtain ⟨u, v, hu, -, rfl⟩ := hn
      have hu0 : u = 0 := by
        obtain ⟨_, _, e⟩ := List.mem_map.mp (List.mem_of_getElem? hu)
        exact e.symm
      rw [hu0, zero_mul]
    have u1 := linalgSolve_unique h (y := l.map fun _ => 0) ⟨by simp, by rw [hz, ← h2, hz]⟩
    have u2 := linalgSolve_unique h (y := l.map fun _ => 1) ⟨by simp, by rw [hz, ← h2, hz]⟩
    rw [← u2] at u1
    cases l with
    | nil => exact hl rfl
    | cons _ _ => simp at u1

end Ptera
