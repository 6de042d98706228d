import Verif.Lemmas.LinearSystem
import Verif.Lemmas.Overlap

/-! A panel without area makes the systems of the solvers singular. -/

namespace Ptera

theorem Panel.no_area_iff (p : Panel) : ¬ 0 < p.area ↔ p.crossDiagonals = 0 := by
  unfold Panel.area
  constructor
  · intro h
    by_contra hne
    exact h (by have := V3.norm_pos.mpr hne; linarith)
  · intro h
    rw [h]; simp

theorem Panel.flat_normal {p : Panel} (h : ¬ 0 < p.area) : p.unitNormal = 0 := by
  unfold Panel.unitNormal
  rw [p.no_area_iff.mp h]; simp

theorem Panel.unitNormal_norm (p : Panel) (h : 0 < p.area) : p.unitNormal.norm = 1 := by
  have h1 : p.crossDiagonals ≠ 0 := fun h0 => p.no_area_iff.mpr h0 h
  have h2 := V3.norm_pos.mpr h1
  unfold Panel.unitNormal
  rw [V3.norm_smul, abs_of_pos (by positivity)]
  field_simp

theorem flat_steady {as : List Airplane} (hm : ∀ a ∈ as, a.Made) {r : PanelRef} {p : Panel} (hr : panelAt as r = some p)
    (h : ¬ 0 < p.area) (op : OperatingPoint) (heap : PanelHeap) (loads : List AirplaneLoads) :
    (HorseshoeSolver.create ⟨as, op⟩ heap loads).run = .error .linAlgError ∧
    (RingSolver.create ⟨as, op⟩ heap loads).run = .error .linAlgError := by
  have hmem : r ∈ panelRefs as := (mem_panelRefs _ _).mpr ⟨p, hr⟩
  have hn : (geometryOf as r).unitNormal = 0 := by rw [geometryOf_eq hr, Panel.flat_normal h]
  constructor
  · obtain ⟨e1, e2⟩ := HorseshoeSolver.system_eq ⟨as, op⟩ hm heap loads
    rw [HorseshoeSolver.run_eq _ (counted_of_made hm) (by simp [HorseshoeSolver.create]), e1, e2,
      linalgSolve_row hmem]
    · rfl
    · intro j _
      unfold HorseshoeSolver.coefficient
      rw [hn]; simp [V3.dot]
    · simp
  · obtain ⟨e1, e2⟩ := RingSolver.system_eq ⟨as, op⟩ hm heap loads
    rw [RingSolver.run_eq _ (counted_of_made hm) (by simp [RingSolver.create]) (by simp [RingSolver.create]), e1, e2,
      linalgSolve_row hmem]
    · rfl
    · intro j _
      unfold RingSolver.coefficient
      rw [hn]; simp [V3.dot]
    · simp

theorem flat_unsteady {p : UnsteadyProblem} (hp : p.Made) {s : UnsteadySolver} (hs : UnsteadySolver.Reached p s) {k : ℕ}
    (hk : k < p.numSteps) {r : PanelRef} {q : Panel} (hr : panelAt (p.airplanesAt k) r = some q) (h : ¬ 0 < q.area)
    (pres sl : Bool) : ∃ e, s.run pres sl = .error e := by
  cases hrun : s.run pres sl with
  | error e => exact ⟨e, rfl⟩
  | ok s' =>
    exfalso
    obtain ⟨st, sm, ht⟩ := hs.trace hp hrun
    obtain ⟨Γ, hΓ, -⟩ := ht.values hp.regular hk
    have hu : UnsteadySolver.wingMatrix p k = (panelRefs (p.airplanesAt k)).map fun i =>
        (panelRefs (p.airplanesAt k)).map fun j =>
          (UnsteadySolver.unitRing p k j (geometryOf (p.airplanesAt k) i).collocationPoint).dot
            (geometryOf (p.airplanesAt k) i).unitNormal := rfl
    have hn : (geometryOf (p.airplanesAt k) r).unitNormal = 0 := by rw [geometryOf_eq hr, Panel.flat_normal h]
    rw [hu, linalgSolve_row ((mem_panelRefs _ _).mpr ⟨q, hr⟩)] at hΓ
    · cases hΓ
    · intro j _
      rw [hn]; simp [V3.dot]
    · simp

end Ptera
