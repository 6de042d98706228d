import Verif.Spec.Lattice
import Verif.Lemmas.Loads

/-! Flags and neighbours of the panels of made airplanes. -/

namespace Ptera

theorem panelAt_cell {as : List Airplane} {r : PanelRef} {p : Panel} (h : panelAt as r = some p) :
    ∃ a w, as[r.airplane]? = some a ∧ a.wings[r.wing]? = some w ∧ cell w.panels r.row r.col = some p := by
  unfold panelAt wingAt at h
  obtain ⟨w, hw, hp⟩ := Option.bind_eq_some_iff.mp h
  obtain ⟨a, ha, hw⟩ := Option.bind_eq_some_iff.mp hw
  exact ⟨a, w, ha, hw, hp⟩

theorem cell_panelAt {as : List Airplane} {r : PanelRef} {a : Airplane} {w : Wing}
    (ha : as[r.airplane]? = some a) (hw : a.wings[r.wing]? = some w) :
    panelAt as r = cell w.panels r.row r.col := by
  unfold panelAt wingAt
  rw [ha]
  simp only [Option.bind_some, hw]
  rfl

/-- What the flags of a panel say about its neighbours. -/
structure Flags (as : List Airplane) (r : PanelRef) (p : Panel) : Prop where
  right : p.isRightEdge = true ↔ panelAt as { r with col := r.col + 1 } = none
  left : p.isLeftEdge = true ↔ r.col = 0
  leading : p.isLeadingEdge = true ↔ r.row = 0
  trailing : p.isTrailingEdge = true ↔ panelAt as { r with row := r.row + 1 } = none
  chordwise : p.localChordwise = r.row
  spanwise : p.localSpanwise = r.col
  leftPanel : r.col ≠ 0 → ∃ q, panelAt as { r with col := r.col - 1 } = some q
  frontPanel : r.row ≠ 0 → ∃ q, panelAt as { r with row := r.row - 1 } = some q

theorem made_cells {w : Wing} (h : w.Made) (i j : ℕ) :
    (∃ q, cell w.panels i j = some q) ↔ i < w.panels.length ∧ j < w.numSpanwisePanels := by
  obtain ⟨S, le, n, sym, u, m, sp, hc⟩ := h
  obtain ⟨c1, c2, _⟩ := C18_wing_counts S le n sym u m sp w hc
  constructor
  · rintro ⟨q, hq⟩
    unfold cell at hq
    obtain ⟨row, hrow, hq⟩ := Option.bind_eq_some_iff.mp hq
    obtain ⟨h1, h2⟩ := List.getElem?_eq_some_iff.mp hrow
    refine ⟨h1, ?_⟩
    rw [← c2 row (List.mem_of_getElem? hrow)]
    exact (List.getElem?_eq_some_iff.mp hq).1
  · rintro ⟨h1, h2⟩
    have h3 : j < w.panels[i].length := by rw [c2 _ (List.getElem_mem h1)]; exact h2
    exact ⟨w.panels[i][j], by simp [cell, h1, h3]⟩

theorem made_flags {as : List Airplane} (hm : ∀ a ∈ as, a.Made) {r : PanelRef} {p : Panel}
    (hp : panelAt as r = some p) : Flags as r p := by
  obtain ⟨a, w, ha, hw, hc⟩ := panelAt_cell hp
  have hwm : w.Made := (hm a (List.mem_of_getElem? ha)).wings w (List.mem_of_getElem? hw)
  have hcells := made_cells hwm
  obtain ⟨hi, hj⟩ := (hcells _ _).mp ⟨p, hc⟩
  have hnone : ∀ i j, cell w.panels i j = none ↔ ¬(i < w.panels.length ∧ j < w.numSpanwisePanels) := by
    intro i j
    rw [← hcells i j, Option.eq_none_iff_forall_ne_some]
    push Not
    rfl
  obtain ⟨S, le, n, sym, u, m, sp, hcr⟩ := hwm
  obtain ⟨c1, c2, _⟩ := C18_wing_counts S le n sym u m sp w hcr
  obtain ⟨f1, f2, f3, f4, f5, f6⟩ := C19_flags S le n sym u m sp w hcr _ _ p hc
  refine ⟨?_, f3, f1, ?_, f5, f6, ?_, ?_⟩
  · rw [cell_panelAt (r := { r with col := r.col + 1 }) ha hw, hnone, f4]
    simp only
    omega
  · rw [cell_panelAt (r := { r with row := r.row + 1 }) ha hw, hnone, f2]
    simp only
    omega
  · intro h0
    rw [cell_panelAt (r := { r with col := r.col - 1 }) ha hw]
    exact (hcells _ _).mpr ⟨hi, by simp only; omega⟩
  · intro h0
    rw [cell_panelAt (r := { r with row := r.row - 1 }) ha hw]
    exact (hcells _ _).mpr ⟨by simp only; omega, hj⟩

theorem strengthAt_some {as : List Airplane} {heap : PanelHeap} {r : PanelRef} {p : Panel}
    (h : panelAt as r = some p) : strengthAt as heap r = (((heap r).ring).map (·.strength)).getD 0 := by
  unfold strengthAt; rw [if_pos ⟨p, h⟩]

theorem strengthAt_none {as : List Airplane} {heap : PanelHeap} {r : PanelRef}
    (h : panelAt as r = none) : strengthAt as heap r = 0 := by
  unfold strengthAt; rw [if_neg (by rw [h]; simp)]

theorem effectiveRight_eq {as : List Airplane} (hm : ∀ a ∈ as, a.Made) (heap : PanelHeap) {r : PanelRef} {p : Panel}
    (hp : panelAt as r = some p) : effectiveRight as heap (strengthAt as heap r) r = netRight as heap r := by
  have hf := made_flags hm hp
  unfold effectiveRight netRight
  simp only [geometryOf_eq hp]
  by_cases h : p.isRightEdge
  · rw [if_pos h, strengthAt_none (hf.right.mp h), sub_zero]
  · rw [if_neg h]
    have : panelAt as { r with col := r.col + 1 } ≠ none := fun e => h (hf.right.mpr e)
    obtain ⟨q, hq⟩ := Option.ne_none_iff_exists'.mp this
    rw [strengthAt_some hq, hf.chordwise, hf.spanwise]
    rfl

theorem effectiveLeft_eq {as : List Airplane} (hm : ∀ a ∈ as, a.Made) (heap : PanelHeap) {r : PanelRef} {p : Panel}
    (hp : panelAt as r = some p) : effectiveLeft as heap (strengthAt as heap r) r = netLeft as heap r := by
  have hf := made_flags hm hp
  unfold effectiveLeft netLeft
  simp only [geometryOf_eq hp]
  by_cases h : p.isLeftEdge
  · rw [if_pos h, if_pos (hf.left.mp h), sub_zero]
  · rw [if_neg h]
    have h0 : r.col ≠ 0 := fun e => h (hf.left.mpr e)
    obtain ⟨q, hq⟩ := hf.leftPanel h0
    rw [if_neg h0, strengthAt_some hq, hf.chordwise, hf.spanwise]
    rfl

theorem effectiveFront_eq {as : List Airplane} (hm : ∀ a ∈ as, a.Made) (heap : PanelHeap) {r : PanelRef} {p : Panel}
    (hp : panelAt as r = some p) : effectiveFront as heap (strengthAt as heap r) r = netFront as heap r := by
  have hf := made_flags hm hp
  unfold effectiveFront netFront
  simp only [geometryOf_eq hp]
  by_cases h : p.isLeadingEdge
  · rw [if_pos h, if_pos (hf.leading.mp h), sub_zero]
  · rw [if_neg h]
    have h0 : r.row ≠ 0 := fun e => h (hf.leading.mpr e)
    obtain ⟨q, hq⟩ := hf.frontPanel h0
    rw [if_neg h0, strengthAt_some hq, hf.chordwise, hf.spanwise]
    rfl

/-- Net strengths depend only on the rings. -/
theorem strengthAt_congr {as : List Airplane} {heap heap' : PanelHeap} (h : ∀ r, (heap r).ring = (heap' r).ring)
    (r : PanelRef) : strengthAt as heap r = strengthAt as heap' r := by
  unfold strengthAt; rw [h r]

theorem enumerates_refs (as : List Airplane) : Enumerates as (panelRefs as) := by
  refine ⟨mem_panelRefs as, panelRefs_nodup as, panelRefs_ordered as, ?_⟩
  unfold panelRefs
  rw [List.length_flatMap]
  simp only [airplaneRefs_length]
  rw [sum_map_zipIdx as 0 (fun a => (a.wings.flatMap fun w => w.panels.flatten).length)]
  simp [List.length_flatMap, List.length_flatten]

end Ptera
