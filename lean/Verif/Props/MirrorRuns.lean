import Verif.Spec.Mirror
import Verif.Props.Attitude
import Verif.Props.Watertight

/-!
# Steady results of mirrored airplanes

C65: mirrored airplanes in the mirrored freestream have the mirrored loads; a symmetric airplane without sideslip has
no side force, no rolling and no yawing moment.
-/

namespace Ptera

open List

/-- The matrix of the reflection in the plane `y = 0`. -/
def mirrorMatrix : M3 := ⟨⟨1, 0, 0⟩, ⟨0, -1, 0⟩, ⟨0, 0, 1⟩⟩

theorem mirrorMatrix_mulVec (v : V3) : mirrorMatrix.mulVec v = mirrored v := by
  ext <;> simp [mirrorMatrix, M3.mulVec, V3.dot, mirrored]

theorem mirrorMatrix_ortho : mirrorMatrix.IsOrtho := by
  unfold M3.IsOrtho
  ext <;> simp [mirrorMatrix, M3.mul, M3.transpose, M3.one, M3.mulVec, V3.dot]

theorem mirrorMatrix_det : mirrorMatrix.det = -1 := by simp [mirrorMatrix, M3.det, V3.dot, V3.cross]

theorem mirror_rotation (op : OperatingPoint) :
    ({ op with beta := -op.beta } : OperatingPoint).rotationWindToGeometry.transpose.mul mirrorMatrix
      = mirrorMatrix.mul op.rotationWindToGeometry.transpose := by
  have hr : radians (-op.beta) = -radians op.beta := by unfold radians; ring
  simp only [OperatingPoint.rotationWindToGeometry, M3.mul_one, OperatingPoint.alphaRotation,
    OperatingPoint.betaRotation, hr, Real.cos_neg, Real.sin_neg]
  ext <;> simp [M3.mul, M3.transpose, M3.mulVec, mirrorMatrix, OperatingPoint.axesFlip, V3.dot]

theorem mirror_direction (op : OperatingPoint) :
    ({ op with beta := -op.beta } : OperatingPoint).freestreamDirection = mirrorMatrix.mulVec op.freestreamDirection := by
  have hr : radians (-op.beta) = -radians op.beta := by unfold radians; ring
  simp only [OperatingPoint.freestreamDirection, OperatingPoint.rotationWindToGeometry, M3.mul_one,
    OperatingPoint.alphaRotation, OperatingPoint.betaRotation, hr, Real.cos_neg, Real.sin_neg]
  ext <;> simp [M3.mul, M3.transpose, M3.mulVec, mirrorMatrix, OperatingPoint.axesFlip, V3.dot]

theorem forall₂_at {α β : Type} {R : α → β → Prop} {l : List α} {l' : List β} (h : Forall₂ R l l') (i : ℕ) (x : α)
    (hx : l[i]? = some x) : ∃ y, l'[i]? = some y ∧ R x y := by
  obtain ⟨hl, rfl⟩ := List.getElem?_eq_some_iff.mp hx
  have hl' : i < l'.length := by rw [← h.length_eq]; exact hl
  exact ⟨l'[i], List.getElem?_eq_getElem hl', (List.forall₂_iff_get.mp h).2 i hl hl'⟩

theorem SimilarAirplanes.of_mirror {as as' : List Airplane} (h : Forall₂ Airplane.IsMirror as as') :
    ∃ sw, SimilarAirplanes as as' mirrorMatrix 0 sw id (fun _ => id) := by
  have hsw : ∀ a w : ℕ, ∃ b : Bool, ∀ (A A' : Airplane) (W W' : Wing), as[a]? = some A → as'[a]? = some A' →
      A.wings[w]? = some W → A'.wings[w]? = some W' → ∀ i j p p', cell W.panels i j = some p →
        cell W'.panels i (if b then W.numSpanwisePanels - 1 - j else j) = some p' → p.IsMirror b p' := by
    intro a w
    cases hA : as[a]? with
    | none => exact ⟨false, fun _ _ _ _ h => by simp at h⟩
    | some A =>
      obtain ⟨A', hA', -, -, -, -, hw⟩ := forall₂_at h a A hA
      cases hW : A.wings[w]? with
      | none =>
        refine ⟨false, fun B B' W W' h1 _ h3 => ?_⟩
        rw [Option.some.injEq] at h1
        rw [← h1, hW] at h3
        cases h3
      | some W =>
        obtain ⟨W', hW', -, -, -, b, hb⟩ := forall₂_at hw w W hW
        refine ⟨b, fun B B' V V' h1 h2 h3 h4 => ?_⟩
        rw [Option.some.injEq] at h1
        rw [hA', Option.some.injEq] at h2
        rw [← h1, hW, Option.some.injEq] at h3
        rw [← h2, hW', Option.some.injEq] at h4
        rw [← h3, ← h4]
        exact hb
  choose sw hsw using hsw
  refine ⟨sw, mirrorMatrix_ortho, ?_, fun a ha => ⟨a, by rw [h.length_eq]; exact ha, rfl⟩, fun _ _ _ _ h => h⟩
  intro a A hA
  obtain ⟨A', hA', hx, -, -, -, hw⟩ := forall₂_at h a A hA
  refine ⟨A', hA', by rw [hx, mirrorMatrix_mulVec, add_zero], ?_,
    fun w' h => ⟨w', by rw [hw.length_eq]; exact h, rfl⟩, fun _ _ _ _ h => h⟩
  intro w W hW
  obtain ⟨W', hW', h1, h2, h3, -⟩ := forall₂_at hw w W hW
  refine ⟨W', hW', h1, h2, h3, ?_⟩
  intro i j p p' hp hp'
  obtain ⟨q1, q2, q3, q4⟩ := hsw a w _ _ _ _ hA hA' hW hW' i j p p' hp hp'
  simp only [IsImage, mirrorMatrix_mulVec, add_zero]
  exact ⟨q1, q2, q3, q4⟩

/-! ## Which wings are mirror images -/

theorem reflect_y (p le : V3) (h : le.y = 0) : reflectPointAcrossPlane p ⟨0, 1, 0⟩ le = mirrored p := by
  rw [reflect_eq]
  ext <;> simp [mirrored, V3.dot, h]
  ring

theorem mirrored_mirrored (v : V3) : mirrored (mirrored v) = v := by ext <;> simp [mirrored]

/-- C65: a wing built with `symmetric=True`, the normal along `y` and the leading edge in the plane `y = 0` is its own
mirror image if no asymmetric control surface is deflected. -/
theorem C65_symmetric_wing (sections : List WingCrossSection) (le u : V3) (m : ℕ) (sp : String) (w : Wing)
    (h : Wing.create sections le ⟨0, 1, 0⟩ true u m sp = .ok w) (hle : le.y = 0)
    (hcs : ∀ s ∈ sections.dropLast, s.controlSurfaceType = "symmetric" ∨ s.deflection = 0) : w.IsMirror w := by
  refine ⟨rfl, rfl, rfl, true, ?_⟩
  intro i j p p' hp hp'
  simp only [if_true] at hp'
  obtain ⟨h1, h2, h3, h4, -⟩ := C21_mirror sections le ⟨0, 1, 0⟩ u m sp w h hcs (by simp [V3.norm, V3.dot]) i j p p' hp hp'
  rw [reflect_y _ _ hle] at h1 h2 h3 h4
  exact ⟨h1, h2, h3, h4⟩

theorem oppositeSurface_twice (s : WingCrossSection) : oppositeSurface (oppositeSurface s) = s := by
  cases s; simp only [oppositeSurface]; split <;> simp

/-- C65: two such wings that differ only in that all asymmetric control surfaces are deflected the other way are
mirror images of each other. -/
theorem C65_opposite_ailerons (sections : List WingCrossSection) (le u : V3) (m : ℕ) (sp : String) (w w' : Wing)
    (h : Wing.create sections le ⟨0, 1, 0⟩ true u m sp = .ok w)
    (h' : Wing.create (sections.map oppositeSurface) le ⟨0, 1, 0⟩ true u m sp = .ok w') (hle : le.y = 0) :
    w.IsMirror w' := by
  obtain ⟨hs, ha⟩ := Wing.create_ok _ _ _ _ _ _ _ w h
  obtain ⟨hs', ha'⟩ := Wing.create_ok _ _ _ _ _ _ _ w' h'
  have hh : halfSpan (sections.map oppositeSurface) = halfSpan sections := by
    unfold halfSpan; rw [← List.map_dropLast, List.map_map]; rfl
  have hN : w.numSpanwisePanels = halfSpan sections * 2 := by rw [ha.nspan, hs]; rfl
  have hN' : w'.numSpanwisePanels = halfSpan sections * 2 := by rw [ha'.nspan, hs', ← hh]; rfl
  refine ⟨?_, by rw [hN, hN'], ?_, true, ?_⟩
  · unfold Wing.span
    have e : w'.sections = w.sections.map oppositeSurface := by
      rw [ha.stored, ha'.stored, hs, hs']
      unfold withChordwise
      rw [List.map_map, List.map_map]; rfl
    have key : ∀ o : Option WingCrossSection, (((o.map oppositeSurface).map (·.leadingEdge)).getD 0)
        = ((o.map (·.leadingEdge)).getD 0) := by intro o; cases o <;> rfl
    rw [e, List.head?_map, List.getLast?_map, key, key, hs, hs']
  · obtain ⟨-, -, -, -, -, l, -⟩ := ha.grid
    obtain ⟨-, -, -, -, -, l', -⟩ := ha'.grid
    rw [l, l', hs, hs']
  · intro i j p p' hp hp'
    simp only [if_true] at hp'
    have hj : j < w.numSpanwisePanels := by
      obtain ⟨c1, c2, -⟩ := C18_wing_counts _ _ _ _ _ _ _ w h
      obtain ⟨row, hr, hrj⟩ := Option.bind_eq_some_iff.mp hp
      have := c2 row (List.mem_of_getElem? hr)
      have := (List.getElem?_eq_some_iff.mp hrj).1
      have e := (C18_wing_counts _ _ _ _ _ _ _ w h).2.2.1
      omega
    by_cases hside : halfSpan sections ≤ w.numSpanwisePanels - 1 - j
    · obtain ⟨h1, h2, h3, h4⟩ := C21_mirror_opposite sections le ⟨0, 1, 0⟩ u m sp w w' h h' i (w.numSpanwisePanels - 1 - j)
        hside p' p hp' (by rw [show w.numSpanwisePanels - 1 - (w.numSpanwisePanels - 1 - j) = j by omega]; exact hp)
      rw [reflect_y _ _ hle] at h1 h2 h3 h4
      exact ⟨by rw [if_pos rfl, h2, mirrored_mirrored], by rw [if_pos rfl, h1, mirrored_mirrored],
        by rw [if_pos rfl, h4, mirrored_mirrored], by rw [if_pos rfl, h3, mirrored_mirrored]⟩
    · have e : (sections.map oppositeSurface).map oppositeSurface = sections := by
        rw [List.map_map]
        conv_rhs => rw [← List.map_id sections]
        apply List.map_congr_left
        intro s _
        exact oppositeSurface_twice s
      obtain ⟨h1, h2, h3, h4⟩ := C21_mirror_opposite (sections.map oppositeSurface) le ⟨0, 1, 0⟩ u m sp w' w h'
        (by rw [e]; exact h) i j (by rw [hh]; omega) p p' hp (by rw [hN', ← hN]; exact hp')
      rw [reflect_y _ _ hle] at h1 h2 h3 h4
      exact ⟨h1, h2, h3, h4⟩

/-- C65: a wing whose panels lie in the plane `y = 0`, such as a fin, is its own mirror image. -/
theorem C65_fin (w : Wing) (h : ∀ i j p, cell w.panels i j = some p →
    p.frontLeft.y = 0 ∧ p.frontRight.y = 0 ∧ p.backLeft.y = 0 ∧ p.backRight.y = 0) : w.IsMirror w := by
  refine ⟨rfl, rfl, rfl, false, ?_⟩
  intro i j p p' hp hp'
  simp only [Bool.false_eq_true, if_false] at hp'
  rw [hp, Option.some.injEq] at hp'
  subst hp'
  obtain ⟨h1, h2, h3, h4⟩ := h i j p hp
  have e : ∀ v : V3, v.y = 0 → v = mirrored v := by intro v hv; ext <;> simp [mirrored, hv]
  exact ⟨e _ h1, e _ h2, e _ h3, e _ h4⟩

theorem sectionVertex_in_plane {w : WingSpec} {s t : WingCrossSection} {ia oa : Airfoil} (hw : w.leadingEdge.y = 0)
    (hs : s.leadingEdge.y = 0 ∧ s.unitNormal = ⟨0, 1, 0⟩ ∧ s.wingUnitChordwise.y = 0)
    (ht : t.leadingEdge.y = 0 ∧ t.unitNormal = ⟨0, 1, 0⟩ ∧ t.wingUnitChordwise.y = 0) (i j : ℕ) :
    (sectionVertex w s t ia oa i j).y = 0 := by
  have key : ∀ (x : WingCrossSection) (l : List (ℝ × ℝ)), x.leadingEdge.y = 0 ∧ x.unitNormal = ⟨0, 1, 0⟩ ∧
      x.wingUnitChordwise.y = 0 → ((sectionMcl w.leadingEdge x l).getD i 0).y = 0 := by
    intro x l ⟨h1, h2, h3⟩
    rw [List.getD_eq_getElem?_getD]
    unfold sectionMcl
    rw [List.getElem?_map]
    cases l[i]? with
    | none => rfl
    | some c =>
      have hc : x.unitChordwise.y = 0 := by
        unfold WingCrossSection.unitChordwise
        rw [h2]
        simp [angleAxisRotationMatrix, rodrigues, M3.mulVec, V3.dot, V3.norm, h3]
      have hu : x.unitUp.y = 0 := by
        unfold WingCrossSection.unitUp
        rw [h2]
        simp [V3.cross]
      simp [h1, hw, hc, hu]
  unfold sectionVertex
  simp only [V3.add_y, V3.smul_y, V3.sub_y, key s _ hs, key t _ ht, sub_zero, mul_zero, add_zero]

theorem upright_panels (sections : List WingCrossSection) (le u : V3) (m : ℕ) (sp : String) (w : Wing)
    (h : Wing.create sections le ⟨0, 1, 0⟩ false u m sp = .ok w) (hle : le.y = 0) (hu : u.y = 0)
    (hs : ∀ s ∈ sections, s.leadingEdge.y = 0 ∧ s.unitNormal = ⟨0, 1, 0⟩) (i j : ℕ) (p : Panel)
    (hp : cell w.panels i j = some p) :
    p.frontLeft.y = 0 ∧ p.frontRight.y = 0 ∧ p.backLeft.y = 0 ∧ p.backRight.y = 0 := by
  obtain ⟨hspec, ha⟩ := Wing.create_ok _ _ _ _ _ _ _ w h
  have hi := (cell_some_row ha hp).1
  have hj : j < halfSpan sections := by
    obtain ⟨hi, hr⟩ := cell_some_row ha hp
    have hlt := (List.getElem?_eq_some_iff.mp hr).1
    obtain ⟨c1, c2, c3, -⟩ := C18_wing_counts _ _ _ _ _ _ _ w h
    have hip : i < w.panels.length := by
      rw [c1, ← show w.spec.numChordwisePanels = m by rw [hspec]]; exact hi
    rw [List.getD_eq_getElem?_getD, List.getElem?_eq_getElem hip, Option.getD_some, c2 _ (List.getElem_mem hip), c3] at hlt
    simpa [halfSpan] using hlt
  obtain ⟨pre, s, t, post, e, h1, h2⟩ := section_of_column sections j hj
  obtain ⟨⟨ia, oa, _, _, hR⟩, -⟩ := ha.section pre s t post e i hi
  have hc := hR (j - (pre.map (·.numSpanwisePanels)).sum) (by omega)
  rw [show w.spec.symmetric = false by rw [hspec]] at hc
  simp only [Bool.false_eq_true, if_false, zero_add] at hc
  rw [show (pre.map (·.numSpanwisePanels)).sum + (j - (pre.map (·.numSpanwisePanels)).sum) = j by omega, hp] at hc
  cases hc
  have hsm := hs s (by rw [e]; simp)
  have htm := hs t (by rw [e]; simp)
  have hw : w.spec.leadingEdge.y = 0 := by rw [hspec]; exact hle
  have hwu : w.spec.unitChordwise.y = 0 := by rw [hspec]; exact hu
  have hv := fun i j => sectionVertex_in_plane (w := w.spec) (s := { s with wingUnitChordwise := w.spec.unitChordwise })
    (t := { t with wingUnitChordwise := w.spec.unitChordwise }) (ia := ia) (oa := oa) hw ⟨hsm.1, hsm.2, hwu⟩
    ⟨htm.1, htm.2, hwu⟩ i j
  exact ⟨hv _ _, hv _ _, hv _ _, hv _ _⟩

/-- C65: a wing built without a mirror image, with the normal along `y`, whose leading edges all lie in the plane
`y = 0` (a fin) is its own mirror image. -/
theorem C65_upright_wing (sections : List WingCrossSection) (le u : V3) (m : ℕ) (sp : String) (w : Wing)
    (h : Wing.create sections le ⟨0, 1, 0⟩ false u m sp = .ok w) (hle : le.y = 0) (hu : u.y = 0)
    (hs : ∀ s ∈ sections, s.leadingEdge.y = 0 ∧ s.unitNormal = ⟨0, 1, 0⟩) : w.IsMirror w :=
  C65_fin w (upright_panels sections le u m sp w h hle hu hs)

/-- C65: mirrored airplanes, with the sideslip angle reversed, have the mirrored velocities, forces and moments.
(The mirror image of a force is `(x, -y, z)`, that of a moment `(-x, y, -z)`.) The drag and lift coefficients and the
pitching moment coefficient stay, the side force, rolling and yawing moment coefficients change sign. -/
theorem C65_mirror (method : SteadyMethod) (op : OperatingPoint) (as as' : List Airplane)
    (hmade : ∀ a ∈ as, a.Made) (hmade' : ∀ a ∈ as', a.Made) (hmirror : Forall₂ Airplane.IsMirror as as')
    (heap heap' : PanelHeap) (loads loads' : List AirplaneLoads) (R : SteadyResults)
    (h : steadyRun method ⟨as, op⟩ heap loads = .ok R) :
    ∃ R', steadyRun method ⟨as', { op with beta := -op.beta }⟩ heap' loads' = .ok R' ∧
      (∀ q, R'.velocity (mirrored q) = mirrored (R.velocity q)) ∧
      (∀ r p, panelAt as r = some p → ∃ (r' : PanelRef) (p' : Panel) (swapped : Bool) (g : ℝ) (L L' : PanelLoads),
        r'.airplane = r.airplane ∧ r'.wing = r.wing ∧ r'.row = r.row ∧ panelAt as' r' = some p' ∧
        p.IsMirror swapped p' ∧ R.strength r = some g ∧ R'.strength r' = some (if swapped then g else -g) ∧
        R.loads r = some L ∧ R'.loads r' = some L' ∧ L'.forceWind = mirrored L.forceWind ∧
        L'.momentWind = -mirrored L.momentWind) ∧
      (∀ (a : ℕ) A, as[a]? = some A → ∃ L L' : AirplaneLoads, R.totals[a]? = some L ∧ R'.totals[a]? = some L' ∧
        L'.forceWind = mirrored L.forceWind ∧ L'.momentWind = -mirrored L.momentWind ∧
        L'.forceCoefficients = mirrored L.forceCoefficients ∧
        L'.momentCoefficients = -mirrored L.momentCoefficients) := by
  obtain ⟨sw, hsim⟩ := SimilarAirplanes.of_mirror hmirror
  have hs : SimilarProblems ⟨as, op⟩ ⟨as', { op with beta := -op.beta }⟩ mirrorMatrix 0 sw 1 1 id (fun _ => id) :=
    { airplanes := hsim
      made := hmade
      made' := hmade'
      nonzero := one_ne_zero
      direction := mirror_direction op
      velocity := by
        show op.velocity • _ = (1 : ℝ) • mirrorMatrix.mulVec (op.velocity • op.freestreamDirection)
        rw [mirror_direction op, M3.mulVec_smul, one_smul]
      density := (_root_.one_mul _).symm }
  obtain ⟨R', h1, hv, hp, ht⟩ := steady_similar (N := mirrorMatrix) method hs (mirror_rotation op) h heap' loads'
  refine ⟨R', h1, ?_, ?_, ?_⟩
  · intro q
    have := hv q
    rwa [mirrorMatrix_mulVec, mirrorMatrix_mulVec, add_zero, one_smul] at this
  · intro r p hr
    obtain ⟨g, L, L', h1, h2, h3, h4, -, -, h7, h8⟩ := hp r p hr
    obtain ⟨p', hp', himg⟩ := hsim.shapes.similarWings.panel hmade hmade' hr
    refine ⟨imageRef as sw (fun a _ => id a) (fun _ => id) r, p', sw r.airplane r.wing, g, L, L', rfl, rfl, rfl, hp', ?_, h1, ?_, h3, h4,
      ?_, ?_⟩
    · simp only [IsImage, mirrorMatrix_mulVec, add_zero] at himg
      exact himg
    · rw [h2]
      congr 1
      cases sw r.airplane r.wing <;> simp [orientation, mirrorMatrix_det]
    · rw [h7, mirrorMatrix_mulVec]; norm_num
    · rw [h8, mirrorMatrix_mulVec, mirrorMatrix_det]; norm_num
  · intro a A hA
    obtain ⟨A', L, L', h1, h2, h3, h4, h5, ⟨a1, a2⟩, b1, b2⟩ := ht a A hA
    rw [mirrorMatrix_mulVec] at h4 h5
    rw [mirrorMatrix_det] at h5
    have h4' : L'.forceWind = mirrored L.forceWind := by rw [h4]; norm_num
    have h5' : L'.momentWind = -mirrored L.momentWind := by rw [h5]; norm_num
    have ha : a < as.length := (List.getElem?_eq_some_iff.mp hA).1
    have ha' : a < as'.length := by rw [← hmirror.length_eq]; exact ha
    have hm := (List.forall₂_iff_get.mp hmirror).2 a ha ha'
    simp only [List.get_eq_getElem] at hm
    have e1 := (List.getElem?_eq_some_iff.mp hA).2
    have e2 := (List.getElem?_eq_some_iff.mp h1).2
    simp only [id] at e2
    rw [e1, e2] at hm
    obtain ⟨-, r1, r2, r3, -⟩ := hm
    simp only [r1, r2, r3, h4', h5'] at b1 b2
    refine ⟨L, L', h2, h3, h4', h5', ?_, ?_⟩
    · rw [b1, a1]
      ext <;> simp [mirrored, neg_div]
    · rw [b2, a2]
      ext <;> simp [mirrored, neg_div]

/-- C65: a symmetric airplane without sideslip has no side force, no rolling moment and no yawing moment, and its
velocities are mirror images of each other on the two sides. -/
theorem C65_no_sideslip (method : SteadyMethod) (op : OperatingPoint) (hβ : op.beta = 0) (as : List Airplane)
    (hmade : ∀ a ∈ as, a.Made) (hmirror : ∀ a ∈ as, a.IsMirror a)
    (heap : PanelHeap) (loads : List AirplaneLoads) (R : SteadyResults)
    (h : steadyRun method ⟨as, op⟩ heap loads = .ok R) :
    (∀ q, R.velocity (mirrored q) = mirrored (R.velocity q)) ∧
    (∀ q, q.y = 0 → (R.velocity q).y = 0) ∧
    ∀ (a : ℕ) A, as[a]? = some A → ∃ L : AirplaneLoads, R.totals[a]? = some L ∧ L.forceWind.y = 0 ∧
      L.momentWind.x = 0 ∧ L.momentWind.z = 0 ∧ L.forceCoefficients.y = 0 ∧ L.momentCoefficients.x = 0 ∧
      L.momentCoefficients.z = 0 := by
  obtain ⟨R', hR', hv, -, ht⟩ := C65_mirror method op as as hmade hmade (by rw [forall₂_same]; exact hmirror) heap heap
    loads loads R h
  have hop : ({ op with beta := -op.beta } : OperatingPoint) = op := by cases op; simp only at hβ; simp [hβ]
  rw [hop, h] at hR'
  cases hR'
  refine ⟨hv, ?_, ?_⟩
  · intro q hq
    have e : mirrored q = q := by ext <;> simp [mirrored, hq]
    have := hv q
    rw [e] at this
    have := congrArg V3.y this
    simp only [mirrored] at this
    linarith
  · intro a A hA
    obtain ⟨L, L', h1, h2, h3, h4, h5, h6⟩ := ht a A hA
    rw [h1, Option.some.injEq] at h2
    subst h2
    refine ⟨L, h1, ?_, ?_, ?_, ?_, ?_, ?_⟩
    · have := congrArg V3.y h3; simp only [mirrored] at this; linarith
    · have := congrArg V3.x h4; simp [mirrored] at this; linarith
    · have := congrArg V3.z h4; simp [mirrored] at this; linarith
    · have := congrArg V3.y h5; simp only [mirrored] at this; linarith
    · have := congrArg V3.x h6; simp [mirrored] at this; linarith
    · have := congrArg V3.z h6; simp [mirrored] at this; linarith

/-! ## Concrete cases -/

/-- A swept, twisted, cambered wing with flaps is its own mirror image, and with ailerons the other way it is the mirror
image of the wing with its ailerons reversed. -/
example : (∃ w, Wing.create exampleSections ⟨5, 0, 1⟩ ⟨0, 1, 0⟩ true ⟨1, 0, 0⟩ 4 "cosine" = .ok w ∧ w.IsMirror w) ∧
    ∃ S w w', (∃ s ∈ S, s.controlSurfaceType = "asymmetric" ∧ s.deflection = 20) ∧
      Wing.create S ⟨5, 0, 1⟩ ⟨0, 1, 0⟩ true ⟨1, 0, 0⟩ 4 "cosine" = .ok w ∧
      Wing.create (S.map oppositeSurface) ⟨5, 0, 1⟩ ⟨0, 1, 0⟩ true ⟨1, 0, 0⟩ 4 "cosine" = .ok w' ∧ w.IsMirror w' := by
  constructor
  · obtain ⟨w, hw⟩ := exampleSections_accepted true
    refine ⟨w, hw, C65_symmetric_wing _ _ _ _ _ _ hw rfl ?_⟩
    intro s hs
    simp only [exampleSections, List.dropLast_cons_cons, List.dropLast_singleton, List.mem_cons, List.not_mem_nil,
      or_false] at hs
    rcases hs with rfl | rfl <;> simp [plateSection]
  · let S : List WingCrossSection := [plateSection 0 2 3 20 "asymmetric" 3 "cosine",
      plateSection ⟨1, 3, 0⟩ 1.5 0 0 "asymmetric" 2 "uniform"]
    have hS : ∃ w, Wing.create S ⟨5, 0, 1⟩ ⟨0, 1, 0⟩ true ⟨1, 0, 0⟩ 4 "cosine" = .ok w := by
      apply plateWing_accepted _ _ _ (by norm_num) _ (by simp) (by simp [S])
        (hn := by simp [S, plateSection])
      · intro r hr; simp [S] at hr; rw [← hr]; rfl
      · intro s hs
        simp only [S, List.mem_cons, List.not_mem_nil, or_false] at hs
        rcases hs with rfl | rfl <;> exact ⟨_, _, _, _, _, _, _, rfl, by norm_num [abs_le]⟩
    have hS' : ∃ w, Wing.create (S.map oppositeSurface) ⟨5, 0, 1⟩ ⟨0, 1, 0⟩ true ⟨1, 0, 0⟩ 4 "cosine" = .ok w := by
      have e : S.map oppositeSurface = [plateSection 0 2 3 (-20) "asymmetric" 3 "cosine",
          plateSection ⟨1, 3, 0⟩ 1.5 0 (-0) "asymmetric" 2 "uniform"] := by
        simp [S, oppositeSurface, plateSection]
      rw [e]
      apply plateWing_accepted _ _ _ (by norm_num) _ (by simp) (by simp)
      · intro r hr; simp at hr; rw [← hr]; rfl
      · intro s hs
        simp only [List.mem_cons, List.not_mem_nil, or_false] at hs
        rcases hs with rfl | rfl <;> exact ⟨_, _, _, _, _, _, _, rfl, by norm_num [abs_le]⟩
    obtain ⟨w, hw⟩ := hS
    obtain ⟨w', hw'⟩ := hS'
    exact ⟨S, w, w', ⟨_, List.mem_cons_self, rfl, rfl⟩, hw, hw', C65_opposite_ailerons S _ _ _ _ _ _ hw hw' rfl⟩

/-- A plate whose middle line lies in the symmetry plane, in an airflow without sideslip: both solvers run. -/
example (method : SteadyMethod) : ∃ (a : Airplane) (R : SteadyResults), a.Made ∧ a.IsMirror a ∧
    steadyRun method ⟨[a], { velocity := 10, density := 1, alpha := 90, beta := 0 }⟩ = .ok R ∧
    ∃ L : AirplaneLoads, R.totals[0]? = some L ∧ L.forceWind.y = 0 ∧ L.momentWind.x = 0 ∧ L.momentWind.z = 0 := by
  obtain ⟨a, hmade, hrefs, hp, href, R, hR⟩ := plate_steadyRun method 10 1 .fresh [] ⟨0, 1 / 2, 0⟩
  obtain ⟨a', ha'⟩ := C64_can_be_built one_isRot ⟨0, -1 / 2, 0⟩ a hmade
  obtain ⟨R', hR', -⟩ := C64_position method _ ⟨0, -1 / 2, 0⟩ [a] [a'] (by simpa using ha') .fresh .fresh [] [] R hR
  obtain ⟨-, -, -, -, -, hx, hl, hw⟩ := C64_geometry one_isRot a a' ha'
  have hself : a'.IsMirror a' := by
    refine ⟨?_, rfl, rfl, rfl, ?_⟩
    · rw [hx, href]
      ext <;> simp [mirrored, M3.one, M3.mulVec, V3.dot]
      norm_num
    · rw [List.forall₂_same]
      intro w' hw'
      obtain ⟨k, hk, rfl⟩ := List.getElem_of_mem hw'
      have hk2 : k < a.wings.length := by rw [← hl]; exact hk
      obtain ⟨-, -, -, hpan⟩ := hw k a.wings[k] a'.wings[k] (List.getElem?_eq_getElem hk2) (List.getElem?_eq_getElem hk)
      refine ⟨rfl, rfl, rfl, true, ?_⟩
      intro i j p p' h1 h2
      have hcells : ∀ i j p, cell a'.wings[k].panels i j = some p → i = 0 ∧ j = 0 ∧
          p.frontLeft = ⟨0, -1 / 2, 0⟩ ∧ p.frontRight = ⟨0, 1 / 2, 0⟩ ∧ p.backLeft = ⟨1, -1 / 2, 0⟩ ∧
          p.backRight = ⟨1, 1 / 2, 0⟩ := by
        intro i j p hc
        rw [hpan] at hc
        unfold cell at hc
        obtain ⟨row', hr', hc'⟩ := Option.bind_eq_some_iff.mp hc
        rw [List.getElem?_map, Option.map_eq_some_iff] at hr'
        obtain ⟨row, hr, rfl⟩ := hr'
        rw [List.getElem?_map, Option.map_eq_some_iff] at hc'
        obtain ⟨q, hq, rfl⟩ := hc'
        have hat : panelAt [a] ⟨0, k, i, j⟩ = some q := by
          simp [panelAt, wingAt, hr, hq, hk2]
        have hmem := (mem_panelRefs [a] _).mpr ⟨q, hat⟩
        rw [hrefs, List.mem_singleton, PanelRef.mk.injEq] at hmem
        obtain ⟨-, rfl, rfl, rfl⟩ := hmem
        rw [hp, Option.some.injEq] at hat
        subst hat
        refine ⟨rfl, rfl, ?_, ?_, ?_, ?_⟩ <;> ext <;> simp [unitSquare, M3.one, M3.mulVec, V3.dot] <;> norm_num
      obtain ⟨-, -, e1, e2, e3, e4⟩ := hcells _ _ _ h1
      obtain ⟨-, -, f1, f2, f3, f4⟩ := hcells _ _ _ h2
      unfold Panel.IsMirror
      simp only [if_true]
      rw [e1, e2, e3, e4, f1, f2, f3, f4]
      refine ⟨?_, ?_, ?_, ?_⟩ <;> ext <;> simp [mirrored] <;> norm_num
  obtain ⟨-, -, ht⟩ := C65_no_sideslip method _ rfl [a'] (by simpa using ha'.made.2) (by simpa using hself) .fresh [] R' hR'
  obtain ⟨L, h1, h2, h3, h4, -⟩ := ht 0 a' rfl
  exact ⟨a', R', ha'.made.2, hself, hR', L, h1, h2, h3, h4⟩

end Ptera
