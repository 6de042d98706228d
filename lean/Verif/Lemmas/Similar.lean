import Verif.Spec.Similar
import Verif.Lemmas.SimilarSolve
import Verif.Props.RingLattice

/-! Panels, vortices and unit velocities of airplanes that are images of each other. -/

namespace Ptera

variable {M : M3} {t : V3} {m : Bool}

/-- Velocity of a line vortex under an isometry. -/
theorem entry_image (hM : M.IsOrtho) (a b p : V3) :
    expandedEntry 0 ⟨M.mulVec a + t, M.mulVec b + t, 1, 0⟩ (M.mulVec p + t)
      = M.det • M.mulVec (expandedEntry 0 ⟨a, b, 1, 0⟩ p) :=
  C12_isometry M hM t 0 ⟨a, b, 1, 0⟩ p

theorem entry_reverse' (A B p : V3) : expandedEntry 0 ⟨B, A, 1, 0⟩ p = -expandedEntry 0 ⟨A, B, 1, 0⟩ p :=
  eq_neg_of_add_eq_zero_right (entry_reverse A B p)

/-- The sign of the strengths on a wing: minus where an orientation is reversed by just one of the isometry and the
exchange of left and right. -/
noncomputable def orientation (M : M3) (m : Bool) : ℝ := M.det * (if m then -1 else 1)

theorem det_mul_det (hM : M.IsOrtho) : M.det * M.det = 1 := by
  have := congrArg M3.det hM
  rw [M3.det_mul, M3.det_transpose] at this
  rw [this]; simp [M3.det, M3.one, V3.dot]

theorem orientation_sq (hM : M.IsOrtho) (m : Bool) : orientation M m * orientation M m = 1 := by
  unfold orientation
  have := det_mul_det hM
  cases m <;> simp <;> linarith

theorem horseshoe_image (hM : M.IsOrtho) (br fr fl bl p : V3) :
    unitVelocity (horseshoeLegs (M.mulVec (if m then bl else br) + t) (M.mulVec (if m then fl else fr) + t)
      (M.mulVec (if m then fr else fl) + t) (M.mulVec (if m then br else bl) + t)) (M.mulVec p + t)
      = orientation M m • M.mulVec (unitVelocity (horseshoeLegs br fr fl bl) p) := by
  simp only [unitVelocity, horseshoeLegs, List.map_cons, List.map_nil, List.sum_cons, List.sum_nil, entry_image hM,
    orientation]
  cases m
  · simp [M3.mulVec_add]
  · simp only [if_true, M3.mulVec_add, M3.mulVec_zero]
    rw [entry_reverse' fl bl, entry_reverse' fr fl, entry_reverse' br fr]
    simp only [M3.mulVec_neg]
    module

theorem ring_image (hM : M.IsOrtho) (br fr fl bl p : V3) :
    unitVelocity (ringLegs (M.mulVec (if m then bl else br) + t) (M.mulVec (if m then fl else fr) + t)
      (M.mulVec (if m then fr else fl) + t) (M.mulVec (if m then br else bl) + t)) (M.mulVec p + t)
      = orientation M m • M.mulVec (unitVelocity (ringLegs br fr fl bl) p) := by
  simp only [unitVelocity, ringLegs, List.map_cons, List.map_nil, List.sum_cons, List.sum_nil, entry_image hM,
    orientation]
  cases m
  · simp [M3.mulVec_add]
  · simp only [if_true, M3.mulVec_add, M3.mulVec_zero]
    rw [entry_reverse' fl bl, entry_reverse' fr fl, entry_reverse' br fr, entry_reverse' bl br]
    simp only [M3.mulVec_neg]
    module

theorem IsImage.points {p p' : Panel} (h : IsImage M t m p p') :
    p'.frontLeftVortexVertex = M.mulVec (if m then p.frontRightVortexVertex else p.frontLeftVortexVertex) + t ∧
    p'.frontRightVortexVertex = M.mulVec (if m then p.frontLeftVortexVertex else p.frontRightVortexVertex) + t ∧
    p'.collocationPoint = M.mulVec p.collocationPoint + t := by
  obtain ⟨h1, h2, h3, h4⟩ := h
  simp only [Panel.frontLeftVortexVertex, Panel.frontRightVortexVertex, Panel.collocationPoint, Panel.leftLeg,
    Panel.rightLeg, h1, h2, h3, h4]
  cases m <;> refine ⟨?_, ?_, ?_⟩ <;> ext <;> simp [M3.mulVec, V3.dot] <;> ring

theorem IsImage.normal {p p' : Panel} (hM : M.IsOrtho) (h : IsImage M t m p p') :
    p'.unitNormal = orientation M m • M.mulVec p.unitNormal := by
  obtain ⟨h1, h2, h3, h4⟩ := h
  have hc : p'.crossDiagonals = orientation M m • M.mulVec p.crossDiagonals := by
    simp only [Panel.crossDiagonals, Panel.firstDiagonal, Panel.secondDiagonal, h1, h2, h3, h4, add_sub_add_right_eq_sub,
      ← M3.mulVec_sub, hM.cross, orientation]
    cases m
    · simp
    · simp only [if_true]
      rw [V3.cross_anticomm, M3.mulVec_neg]
      module
  have hn : ‖orientation M m‖ = 1 := by
    have := orientation_sq hM m
    rw [Real.norm_eq_abs, ← abs_one, ← sq_eq_sq_iff_abs_eq_abs]
    linarith
  unfold Panel.unitNormal
  rw [hc, V3.norm_smul, ← Real.norm_eq_abs, hn, one_mul, hM.norm, M3.mulVec_smul, smul_comm]

namespace SimilarWings

variable {as as' : List Airplane} {sw : ℕ → ℕ → Bool} {ρ ω : ℕ → ℕ → ℕ}

/-- The wing of a panel and its image, with the rows and columns both have. -/
theorem wing (hs : SimilarWings as as' M t sw ρ ω) (hm : ∀ a ∈ as, a.Made) (hm' : ∀ a ∈ as', a.Made)
    {r : PanelRef} {W : Wing} (hW : wingAt as r = some W) :
    ∃ W', wingAt as' (imageRef as sw ρ ω r) = some W' ∧ W'.span = W.span ∧
      (∀ i j, (∃ p, panelAt as { r with row := i, col := j } = some p)
        ↔ i < W.panels.length ∧ j < W.numSpanwisePanels) ∧
      (∀ i j, (∃ p, panelAt as' { imageRef as sw ρ ω r with row := i, col := j } = some p)
        ↔ i < W.panels.length ∧ j < W.numSpanwisePanels) ∧
      ∀ i j p p', panelAt as { r with row := i, col := j } = some p →
        panelAt as' { imageRef as sw ρ ω r with row := i, col := if sw r.airplane r.wing then W.numSpanwisePanels - 1 - j else j } = some p' →
        IsImage M t (sw r.airplane r.wing) p p' := by
  obtain ⟨A, hA, hAW⟩ := Option.bind_eq_some_iff.mp hW
  obtain ⟨A', W', hA', hW', h1, h2, h3, h4⟩ := hs.wings _ A _ W hA hAW
  have hmade : W.Made := (hm A (List.mem_of_getElem? hA)).wings W (List.mem_of_getElem? hAW)
  have hmade' : W'.Made := (hm' A' (List.mem_of_getElem? hA')).wings W' (List.mem_of_getElem? hW')
  refine ⟨W', Option.bind_eq_some_iff.mpr ⟨A', hA', hW'⟩, h1, ?_, ?_, ?_⟩
  · intro i j
    rw [cell_panelAt (r := { r with row := i, col := j }) hA hAW]
    exact made_cells hmade i j
  · intro i j
    rw [cell_panelAt (r := { imageRef as sw ρ ω r with row := i, col := j }) hA' hW', ← h2, ← h3]
    exact made_cells hmade' i j
  · intro i j p p' hp hp'
    rw [cell_panelAt (r := { r with row := i, col := j }) hA hAW] at hp
    rw [cell_panelAt (r := { imageRef as sw ρ ω r with row := i, col := _ }) hA' hW'] at hp'
    exact h4 i j p p' hp hp'

theorem wingAt_of_panel {r : PanelRef} {p : Panel} (hp : panelAt as r = some p) : ∃ W, wingAt as r = some W := by
  obtain ⟨W, hW, _⟩ := Option.bind_eq_some_iff.mp hp
  exact ⟨W, hW⟩

theorem imageRef_col {r : PanelRef} {W : Wing} (hW : wingAt as r = some W) :
    (imageRef as sw ρ ω r).col = if sw r.airplane r.wing then W.numSpanwisePanels - 1 - r.col else r.col := by
  simp [imageRef, hW]

theorem panel (hs : SimilarWings as as' M t sw ρ ω) (hm : ∀ a ∈ as, a.Made) (hm' : ∀ a ∈ as', a.Made)
    {r : PanelRef} {p : Panel} (hp : panelAt as r = some p) :
    ∃ p', panelAt as' (imageRef as sw ρ ω r) = some p' ∧ IsImage M t (sw r.airplane r.wing) p p' := by
  obtain ⟨W, hW⟩ := wingAt_of_panel hp
  obtain ⟨W', hW', -, h1, h2, h3⟩ := hs.wing hm hm' hW
  obtain ⟨hi, hj⟩ := (h1 r.row r.col).mp ⟨p, hp⟩
  obtain ⟨p', hp'⟩ := (h2 r.row (imageRef as sw ρ ω r).col).mpr ⟨hi, by rw [imageRef_col hW]; split <;> omega⟩
  refine ⟨p', hp', h3 r.row r.col p p' hp ?_⟩
  rw [← imageRef_col (ρ := ρ) (ω := ω) hW]
  exact hp'

theorem perm (hs : SimilarWings as as' M t sw ρ ω) (hm : ∀ a ∈ as, a.Made) (hm' : ∀ a ∈ as', a.Made) :
    (panelRefs as').Perm ((panelRefs as).map (imageRef as sw ρ ω)) := by
  have hinj : ∀ r ∈ panelRefs as, ∀ r' ∈ panelRefs as, imageRef as sw ρ ω r = imageRef as sw ρ ω r' → r = r' := by
    intro r hr r' hr' h
    obtain ⟨p, hp⟩ := (mem_panelRefs _ _).mp hr
    obtain ⟨p', hp'⟩ := (mem_panelRefs _ _).mp hr'
    obtain ⟨A, w, hA, hw, hc⟩ := panelAt_cell hp
    obtain ⟨A', w', hA', hw', hc'⟩ := panelAt_cell hp'
    have h1 : ρ r.airplane r.wing = ρ r'.airplane r'.wing := congrArg PanelRef.airplane h
    have h2 : ω r.airplane r.wing = ω r'.airplane r'.wing := congrArg PanelRef.wing h
    obtain ⟨e1, e2⟩ := hs.injective _ A _ w _ A' _ w' hA hw hA' hw' h1 h2
    rw [← e1, hA] at hA'
    cases hA'
    rw [← e2, hw] at hw'
    cases hw'
    have h3 : (imageRef as sw ρ ω r).row = (imageRef as sw ρ ω r').row := congrArg PanelRef.row h
    have e3 : r.row = r'.row := h3
    have hwm : w.Made := (hm A (List.mem_of_getElem? hA)).wings w (List.mem_of_getElem? hw)
    have g1 := ((made_cells hwm _ _).mp ⟨p, hc⟩).2
    have g2 := ((made_cells hwm _ _).mp ⟨p', hc'⟩).2
    have hW : wingAt as r = some w := Option.bind_eq_some_iff.mpr ⟨A, hA, hw⟩
    have hW' : wingAt as r' = some w := Option.bind_eq_some_iff.mpr ⟨A, by rw [← e1]; exact hA, by rw [← e2]; exact hw⟩
    have h4 : (imageRef as sw ρ ω r).col = (imageRef as sw ρ ω r').col := congrArg PanelRef.col h
    rw [imageRef_col hW, imageRef_col hW'] at h4
    have e4 : r.col = r'.col := by
      rw [← e1, ← e2] at h4
      split at h4 <;> omega
    cases r; cases r'; simp_all
  apply (List.perm_ext_iff_of_nodup (panelRefs_nodup as') ((List.nodup_map_iff_inj_on (panelRefs_nodup as)).mpr hinj)).mpr
  intro r'
  constructor
  · intro hr'
    obtain ⟨p', hp'⟩ := (mem_panelRefs _ _).mp hr'
    obtain ⟨A', W', hA', hW', hc'⟩ := panelAt_cell hp'
    obtain ⟨a, A, w, W, hA, hW, ea, ew⟩ := hs.onto _ A' _ W' hA' hW'
    obtain ⟨A'', W'', hA'', hW'', -, h2, h3, -⟩ := hs.wings a A w W hA hW
    rw [ea, hA'] at hA''
    cases hA''
    rw [ew, hW'] at hW''
    cases hW''
    have hwm : W.Made := (hm A (List.mem_of_getElem? hA)).wings W (List.mem_of_getElem? hW)
    have hwm' : W'.Made := (hm' A' (List.mem_of_getElem? hA')).wings W' (List.mem_of_getElem? hW')
    obtain ⟨g1, g2⟩ := (made_cells hwm' _ _).mp ⟨p', hc'⟩
    set n := W.numSpanwisePanels with hn
    let j := if sw a w then n - 1 - r'.col else r'.col
    have hj : j < n := by simp only [j]; split <;> omega
    obtain ⟨p, hp⟩ := (made_cells hwm r'.row j).mpr ⟨by rw [← h3]; exact g1, hj⟩
    have hp2 : panelAt as ⟨a, w, r'.row, j⟩ = some p := by
      rw [cell_panelAt (r := ⟨a, w, r'.row, j⟩) hA hW]; exact hp
    have hWr : wingAt as ⟨a, w, r'.row, j⟩ = some W := Option.bind_eq_some_iff.mpr ⟨_, hA, hW⟩
    refine List.mem_map.mpr ⟨⟨a, w, r'.row, j⟩, (mem_panelRefs _ _).mpr ⟨p, hp2⟩, ?_⟩
    have hcol := imageRef_col (sw := sw) (ρ := ρ) (ω := ω) hWr
    have : (imageRef as sw ρ ω ⟨a, w, r'.row, j⟩).col = r'.col := by
      rw [hcol]
      simp only [j, ← hn]
      split <;> omega
    have e : imageRef as sw ρ ω ⟨a, w, r'.row, j⟩ = ⟨ρ a w, ω a w, r'.row, (imageRef as sw ρ ω ⟨a, w, r'.row, j⟩).col⟩ := rfl
    rw [e, this, ea, ew]
  · intro hr'
    obtain ⟨r, hr, rfl⟩ := List.mem_map.mp hr'
    obtain ⟨p, hp⟩ := (mem_panelRefs _ _).mp hr
    obtain ⟨p', hp', -⟩ := hs.panel hm hm' hp
    exact (mem_panelRefs _ _).mpr ⟨p', hp'⟩

theorem below (hs : SimilarWings as as' M t sw ρ ω) (hm : ∀ a ∈ as, a.Made) (hm' : ∀ a ∈ as', a.Made)
    {r : PanelRef} {p p' : Panel} (hp : panelAt as r = some p) (hp' : panelAt as' (imageRef as sw ρ ω r) = some p') :
    p'.isTrailingEdge = p.isTrailingEdge := by
  obtain ⟨W, hW⟩ := wingAt_of_panel hp
  obtain ⟨W', hW', -, h1, h2, -⟩ := hs.wing hm hm' hW
  have hj := ((h1 r.row r.col).mp ⟨p, hp⟩).2
  have hj' := ((h2 r.row (imageRef as sw ρ ω r).col).mp ⟨p', hp'⟩).2
  have f := (made_flags hm hp).trailing
  have f' := (made_flags hm' hp').trailing
  have e : panelAt as { r with row := r.row + 1 } = none ↔ ¬ r.row + 1 < W.panels.length := by
    rw [Option.eq_none_iff_forall_ne_some]
    have := h1 (r.row + 1) r.col
    simp only [hj, and_true] at this
    rw [← this]
    push Not
    rfl
  have e' : panelAt as' { imageRef as sw ρ ω r with row := (imageRef as sw ρ ω r).row + 1 } = none
      ↔ ¬ r.row + 1 < W.panels.length := by
    rw [Option.eq_none_iff_forall_ne_some]
    have := h2 (r.row + 1) (imageRef as sw ρ ω r).col
    simp only [hj', and_true] at this
    rw [← this]
    push Not
    rfl
  rw [e] at f
  rw [e'] at f'
  exact Bool.eq_iff_iff.mpr (f'.trans f.symm)

end SimilarWings

end Ptera
