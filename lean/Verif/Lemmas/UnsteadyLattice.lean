import Verif.Lemmas.UnsteadyForces

/-! How the bound rings of the unsteady solver fit together. -/

namespace Ptera
namespace UnsteadySolver

section
variable {as : List Airplane} {V : V3} {dt : ℝ}

theorem ring_vertices {r : PanelRef} {p : Panel} (hp : panelAt as r = some p) :
    (panelRing as V dt r).frontLeft = p.frontLeft + (1 / 4 : ℝ) • (p.backLeft - p.frontLeft) ∧
    (panelRing as V dt r).frontRight = p.frontRight + (1 / 4 : ℝ) • (p.backRight - p.frontRight) := by
  simp only [panelRing, RingVortex.mk', geometryOf_eq hp, Panel.frontLeftVortexVertex,
    Panel.frontRightVortexVertex, Panel.leftLeg, Panel.rightLeg]
  constructor <;> ext <;> simp [-mul_eq_mul_right_iff] <;> ring

theorem ring_back (hm : ∀ a ∈ as, a.Made) {r : PanelRef} {p : Panel} (hp : panelAt as r = some p) :
    (∀ q, panelAt as { r with row := r.row + 1 } = some q →
      (panelRing as V dt r).backLeft = (panelRing as V dt { r with row := r.row + 1 }).frontLeft ∧
      (panelRing as V dt r).backRight = (panelRing as V dt { r with row := r.row + 1 }).frontRight) ∧
    (panelAt as { r with row := r.row + 1 } = none →
      (panelRing as V dt r).backLeft
        = (panelRing as V dt r).frontLeft + (p.backLeft - p.frontLeft) + (1 / 4 * dt : ℝ) • V ∧
      (panelRing as V dt r).backRight
        = (panelRing as V dt r).frontRight + (p.backRight - p.frontRight) + (1 / 4 * dt : ℝ) • V) := by
  have hf := made_flags hm hp
  constructor
  · intro q hq
    have hte : p.isTrailingEdge = false := by
      by_contra h
      rw [hf.trailing.mp (by simpa using h)] at hq
      simp at hq
    simp [panelRing, RingVortex.mk', backLeftVertex, backRightVertex, geometryOf_eq hp, hte]
  · intro hq
    have hte : p.isTrailingEdge = true := hf.trailing.mpr hq
    simp only [panelRing, RingVortex.mk', backLeftVertex, backRightVertex, geometryOf_eq hp, hte, if_true]
    constructor <;> ext <;> simp [-mul_eq_mul_right_iff] <;> ring

theorem ring_side (hm : ∀ a ∈ as, a.Made) {r : PanelRef} {p q : Panel}
    (hp : panelAt as r = some p) (hq : panelAt as { r with col := r.col + 1 } = some q)
    (hs : SidesShared as r.airplane r.wing) :
    (panelRing as V dt r).frontRight = (panelRing as V dt { r with col := r.col + 1 }).frontLeft ∧
    (panelRing as V dt r).backRight = (panelRing as V dt { r with col := r.col + 1 }).backLeft := by
  have front : ∀ (i : ℕ) (p q : Panel), panelAt as ⟨r.airplane, r.wing, i, r.col⟩ = some p →
      panelAt as ⟨r.airplane, r.wing, i, r.col + 1⟩ = some q →
      (panelRing as V dt ⟨r.airplane, r.wing, i, r.col⟩).frontRight
        = (panelRing as V dt ⟨r.airplane, r.wing, i, r.col + 1⟩).frontLeft := by
    intro i p q hp hq
    obtain ⟨h1, h2⟩ := hs i r.col p q hp hq
    rw [(ring_vertices hp).2, (ring_vertices hq).1, h1, h2]
  refine ⟨front r.row p q hp hq, ?_⟩
  have hf := made_flags hm hp
  have hfq := made_flags hm hq
  by_cases hb : panelAt as { r with row := r.row + 1 } = none
  · have hte : q.isTrailingEdge = true := by
      rw [hfq.trailing]
      obtain ⟨a, w, ha, hw, hc⟩ := panelAt_cell hp
      have hwm : w.Made := (hm a (List.mem_of_getElem? ha)).wings w (List.mem_of_getElem? hw)
      obtain ⟨h1, h2⟩ := (made_cells hwm _ _).mp ⟨p, hc⟩
      rw [cell_panelAt (r := { r with row := r.row + 1 }) ha hw] at hb
      rw [cell_panelAt (r := { r with row := r.row + 1, col := r.col + 1 }) ha hw]
      by_contra hcon
      obtain ⟨q', hq'⟩ := Option.ne_none_iff_exists'.mp hcon
      obtain ⟨h3, h4⟩ := (made_cells hwm _ _).mp ⟨q', hq'⟩
      obtain ⟨q'', hq''⟩ := (made_cells hwm (r.row + 1) r.col).mpr ⟨h3, h2⟩
      simp only at hb
      rw [hq''] at hb
      simp at hb
    rw [((ring_back hm hp).2 hb).2, ((ring_back hm hq).2 (hfq.trailing.mp hte)).1]
    obtain ⟨h1, h2⟩ := hs r.row r.col p q hp hq
    rw [(ring_vertices hp).2, (ring_vertices hq).1, h1, h2]
  · obtain ⟨p', hp'⟩ := Option.ne_none_iff_exists'.mp hb
    have : ∃ q', panelAt as { r with row := r.row + 1, col := r.col + 1 } = some q' := by
      obtain ⟨a, w, ha, hw, hc⟩ := panelAt_cell hp
      have hwm : w.Made := (hm a (List.mem_of_getElem? ha)).wings w (List.mem_of_getElem? hw)
      rw [cell_panelAt (r := { r with row := r.row + 1 }) ha hw] at hp'
      rw [cell_panelAt (r := { r with col := r.col + 1 }) ha hw] at hq
      rw [cell_panelAt (r := { r with row := r.row + 1, col := r.col + 1 }) ha hw]
      exact (made_cells hwm _ _).mpr ⟨((made_cells hwm _ _).mp ⟨_, hp'⟩).1, ((made_cells hwm _ _).mp ⟨_, hq⟩).2⟩
    obtain ⟨q', hq'⟩ := this
    rw [((ring_back hm hp).1 p' hp').2, ((ring_back hm hq).1 q' hq').1]
    exact front (r.row + 1) p' q' hp' hq'

end

end UnsteadySolver
end Ptera
