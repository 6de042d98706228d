import Verif.Spec.Scaled
import Verif.Lemmas.MovedWing

/-! A wing built from arguments in another unit of length is the scaled wing. -/

namespace Ptera

open List

variable {ℓ : ℝ}

theorem V3.smul_eq_zero' {c : ℝ} {v : V3} (hc : c ≠ 0) : c • v = 0 ↔ v = 0 := by
  constructor
  · intro h
    have := congrArg (c⁻¹ • ·) h
    simpa [smul_smul, inv_mul_cancel₀ hc] using this
  · rintro rfl; simp

/-- A panel with its lengths multiplied. -/
noncomputable def Panel.scale (ℓ : ℝ) (p : Panel) : Panel :=
  { p with frontLeft := ℓ • p.frontLeft, frontRight := ℓ • p.frontRight
           backLeft := ℓ • p.backLeft, backRight := ℓ • p.backRight }

theorem reflect_scaled (p n q : V3) :
    reflectPointAcrossPlane (ℓ • p) n (ℓ • q) = ℓ • reflectPointAcrossPlane p n q := by
  rw [reflect_eq, reflect_eq]
  ext <;> simp [V3.dot] <;> ring

/-- The arguments of a wing as the mesher sees them, scaled. -/
noncomputable def WingSpec.scale (ℓ : ℝ) (w : WingSpec) : WingSpec := { w with leadingEdge := ℓ • w.leadingEdge }

theorem unitChordwise_inUnits (s : WingCrossSection) : (s.inUnits ℓ).unitChordwise = s.unitChordwise := rfl

theorem unitUp_inUnits (s : WingCrossSection) : (s.inUnits ℓ).unitUp = s.unitUp := rfl

theorem sectionMcl_scale (q : V3) (s : WingCrossSection) (l : List (ℝ × ℝ)) :
    sectionMcl (ℓ • q) (s.inUnits ℓ) l = (sectionMcl q s l).map fun p => ℓ • p := by
  unfold sectionMcl
  rw [List.map_map]
  apply List.map_congr_left
  intro p _
  simp only [Function.comp, unitChordwise_inUnits, unitUp_inUnits]
  simp only [WingCrossSection.inUnits, smul_add, smul_smul, mul_assoc]

theorem sectionVertex_scale (w : WingSpec) (inner outer : WingCrossSection) (ia oa : Airfoil) (i j : ℕ)
    (hi : i < w.numChordwisePanels + 1) :
    sectionVertex (w.scale ℓ) (inner.inUnits ℓ) (outer.inUnits ℓ) ia oa i j
      = ℓ • sectionVertex w inner outer ia oa i j := by
  have key : ∀ (s : WingCrossSection) (a : Airfoil),
      (sectionMcl (w.scale ℓ).leadingEdge (s.inUnits ℓ) (mclVectors a (w.scale ℓ).chordwiseCoordinates)).getD i 0
        = ℓ • ((sectionMcl w.leadingEdge s (mclVectors a w.chordwiseCoordinates)).getD i 0) := by
    intro s a
    have e : (w.scale ℓ).chordwiseCoordinates = w.chordwiseCoordinates := rfl
    have e2 : (w.scale ℓ).leadingEdge = ℓ • w.leadingEdge := rfl
    have hl := sectionMcl_length w.leadingEdge s a w
    rw [e, e2, sectionMcl_scale, List.getD_eq_getElem?_getD, List.getD_eq_getElem?_getD, List.getElem?_map,
      List.getElem?_eq_getElem (by omega)]
    rfl
  unfold sectionVertex
  have e3 : (inner.inUnits ℓ).spanwiseCoordinates = inner.spanwiseCoordinates := rfl
  simp only [key, e3]
  module

/-- Scaling an array of panels. -/
noncomputable def scalePanels (ℓ : ℝ) : List (List Panel) → List (List Panel) := List.map (List.map (Panel.scale ℓ))

theorem scalePanels_grid (m n : ℕ) (f : ℕ → ℕ → Panel) :
    scalePanels ℓ (grid m n f) = grid m n fun i j => (f i j).scale ℓ := by
  simp [scalePanels, grid, Function.comp_def]

theorem rightSection_scale (w : WingSpec) (inner outer : WingCrossSection) :
    rightSection (w.scale ℓ) (inner.inUnits ℓ) (outer.inUnits ℓ)
      = (rightSection w inner outer).map (scalePanels ℓ) := by
  unfold rightSection
  have e1 : (inner.inUnits ℓ).airfoil = inner.airfoil := rfl
  have e2 : (outer.inUnits ℓ).airfoil = outer.airfoil := rfl
  have e3 : (inner.inUnits ℓ).deflection = inner.deflection := rfl
  have e4 : (inner.inUnits ℓ).hinge = inner.hinge := rfl
  rw [e1, e2, e3, e4]
  simp only [bind, Except.bind]
  cases inner.airfoil.addControlSurface inner.deflection inner.hinge with
  | error e => rfl
  | ok ia =>
    cases outer.airfoil.addControlSurface inner.deflection inner.hinge with
    | error e => rfl
    | ok oa =>
      have e5 : (w.scale ℓ).numChordwisePanels = w.numChordwisePanels := rfl
      have e6 : (inner.inUnits ℓ).numSpanwisePanels = inner.numSpanwisePanels := rfl
      by_cases h0 : w.numChordwisePanels = 0
      · simp [e5, h0, Except.map]
      · obtain ⟨a1, a2, a3, a4⟩ := sectionVertices_eq (w.scale ℓ) (inner.inUnits ℓ) (outer.inUnits ℓ) ia oa
        obtain ⟨b1, b2, b3, b4⟩ := sectionVertices_eq w inner outer ia oa
        simp only [e5, e6] at a1 a2 a3 a4
        simp only [e5, e6, h0, if_false, a1, a2, a3, a4, b1, b2, b3, b4, pure, Except.pure, Except.map]
        have hm : 0 < w.numChordwisePanels := by omega
        rw [sectionPanels_grid _ _ hm, sectionPanels_grid _ _ hm, scalePanels_grid]
        congr 1
        apply grid_congr
        intro i hi j hj
        simp only [Panel.scale]
        rw [sectionVertex_scale _ _ _ _ _ _ _ (by omega), sectionVertex_scale _ _ _ _ _ _ _ (by omega),
          sectionVertex_scale _ _ _ _ _ _ _ (by omega), sectionVertex_scale _ _ _ _ _ _ _ (by omega)]

theorem leftSection_scale (w : WingSpec) (inner outer : WingCrossSection) (hm : 0 < w.numChordwisePanels) :
    leftSection (w.scale ℓ) (inner.inUnits ℓ) (outer.inUnits ℓ) = (leftSection w inner outer).map (scalePanels ℓ) := by
  unfold leftSection
  have e0 : (if (inner.inUnits ℓ).controlSurfaceType = "symmetric" then (inner.inUnits ℓ).deflection
      else -(inner.inUnits ℓ).deflection)
      = if inner.controlSurfaceType = "symmetric" then inner.deflection else -inner.deflection := rfl
  have e1 : (inner.inUnits ℓ).airfoil = inner.airfoil := rfl
  have e2 : (outer.inUnits ℓ).airfoil = outer.airfoil := rfl
  have e4 : (inner.inUnits ℓ).hinge = inner.hinge := rfl
  rw [e0, e1, e2, e4]
  generalize (if inner.controlSurfaceType = "symmetric" then inner.deflection else -inner.deflection) = d
  simp only [bind, Except.bind]
  cases inner.airfoil.addControlSurface d inner.hinge with
  | error e => rfl
  | ok ia =>
    cases outer.airfoil.addControlSurface d inner.hinge with
    | error e => rfl
    | ok oa =>
      have e5 : (w.scale ℓ).numChordwisePanels = w.numChordwisePanels := rfl
      have e6 : (inner.inUnits ℓ).numSpanwisePanels = inner.numSpanwisePanels := rfl
      by_cases hn : inner.numSpanwisePanels = 0
      · simp only [e6, if_pos hn]; rfl
      simp only [e6, if_neg hn]
      obtain ⟨a1, a2, a3, a4⟩ := sectionVertices_eq (w.scale ℓ) (inner.inUnits ℓ) (outer.inUnits ℓ) ia oa
      obtain ⟨b1, b2, b3, b4⟩ := sectionVertices_eq w inner outer ia oa
      simp only [e5, e6] at a1 a2 a3 a4
      simp only [SectionVertices.reflect, e5, a1, a2, a3, a4, b1, b2, b3, b4, pure, Except.pure, Except.map]
      simp only [grid_map, sectionPanels_grid _ _ hm, scalePanels_grid]
      congr 1
      apply grid_congr
      intro i hi j hj
      simp only [Panel.scale]
      rw [sectionVertex_scale _ _ _ _ _ _ _ (by omega), sectionVertex_scale _ _ _ _ _ _ _ (by omega),
        sectionVertex_scale _ _ _ _ _ _ _ (by omega), sectionVertex_scale _ _ _ _ _ _ _ (by omega)]
      have e7 : (w.scale ℓ).unitNormal = w.unitNormal := rfl
      have e8 : (w.scale ℓ).leadingEdge = ℓ • w.leadingEdge := rfl
      simp only [e7, e8, reflect_scaled]

theorem scalePanels_hstack (a b : List (List Panel)) :
    hstack (scalePanels ℓ a) (scalePanels ℓ b) = scalePanels ℓ (hstack a b) := by
  unfold hstack scalePanels
  rw [List.zipWith_map, List.map_zipWith]
  simp only [List.map_append]

theorem scalePanels_reverse (a : List (List Panel)) :
    (scalePanels ℓ a).map List.reverse = scalePanels ℓ (a.map List.reverse) := by
  unfold scalePanels
  rw [List.map_map, List.map_map]
  apply List.map_congr_left
  intro l _
  simp [Function.comp]

theorem meshStep_scale (w : WingSpec) (panels : List (List Panel)) (s : WingCrossSection × WingCrossSection) :
    meshStep (w.scale ℓ) (scalePanels ℓ panels) (s.1.inUnits ℓ, s.2.inUnits ℓ)
      = (meshStep w panels s).map (scalePanels ℓ) := by
  unfold meshStep
  have es : (w.scale ℓ).symmetric = w.symmetric := rfl
  simp only [es]
  rw [rightSection_scale]
  cases hr : rightSection w s.1 s.2 with
  | error e => rfl
  | ok r =>
    obtain ⟨-, -, -, -, hm, -⟩ := rightSection_ok _ _ _ _ hr
    rw [leftSection_scale _ _ _ hm]
    cases w.symmetric
    · simp only [bind, Except.bind, Except.map, pure, Except.pure, scalePanels_hstack, Bool.false_eq_true, if_false]
    · simp only [if_true]
      cases leftSection w s.1 s.2 with
      | error e => rfl
      | ok l =>
        simp only [bind, Except.bind, Except.map, pure, Except.pure, scalePanels_hstack, scalePanels_reverse]

theorem meshFold_scale (w : WingSpec) (pairs : List (WingCrossSection × WingCrossSection)) :
    ∀ panels : List (List Panel),
      (pairs.map fun s => (s.1.inUnits ℓ, s.2.inUnits ℓ)).foldlM (meshStep (w.scale ℓ)) (scalePanels ℓ panels)
        = (pairs.foldlM (meshStep w) panels).map (scalePanels ℓ) := by
  induction pairs with
  | nil => intro panels; rfl
  | cons s pairs ih =>
    intro panels
    rw [List.map_cons, List.foldlM_cons, List.foldlM_cons, meshStep_scale]
    cases meshStep w panels s with
    | error e => rfl
    | ok q => exact ih q

theorem setPositions_scale (m n : ℕ) (panels : List (List Panel)) :
    setPositions m n (scalePanels ℓ panels) = (setPositions m n panels).map (scalePanels ℓ) := by
  unfold setPositions
  have h1 : (scalePanels ℓ panels).length = panels.length := by simp [scalePanels]
  have h2 : (((scalePanels ℓ panels).take m).any fun row => decide (row.length < n))
      = ((panels.take m).any fun row => decide (row.length < n)) := by
    simp [scalePanels, ← List.map_take, List.any_map, Function.comp_def]
  rw [h1, h2]
  split
  · rfl
  · simp only [Except.map]
    congr 1
    unfold scalePanels
    have key : ∀ {α : Type} (f : α → α) (g : ℕ → α → α) (l : List α), (∀ i x, g i (f x) = f (g i x)) →
        (l.map f).mapIdx g = (l.mapIdx g).map f := by
      intro α f g l h
      apply List.ext_getElem (by simp)
      intro i h1 h2
      simp [h]
    apply key
    intro i row
    apply key
    intro j p
    split <;> rfl

theorem meshWing_scale (w : WingSpec) (sections : List WingCrossSection) (n : ℕ) :
    meshWing (w.scale ℓ) (sections.map (WingCrossSection.inUnits ℓ)) n
      = (meshWing w sections n).map (scalePanels ℓ) := by
  unfold meshWing
  have e1 : (w.scale ℓ).numChordwisePanels = w.numChordwisePanels := rfl
  have e2 : List.zip (sections.map (WingCrossSection.inUnits ℓ)) (sections.map (WingCrossSection.inUnits ℓ)).tail
      = (List.zip sections sections.tail).map fun s => (s.1.inUnits ℓ, s.2.inUnits ℓ) := by
    rw [← List.map_tail, List.zip_map]
    rfl
  have e3 : List.replicate w.numChordwisePanels ([] : List Panel)
      = scalePanels ℓ (List.replicate w.numChordwisePanels []) := by simp [scalePanels]
  rw [e1, e2, e3, meshFold_scale, ← e3]
  cases (List.zip sections sections.tail).foldlM (meshStep w) (List.replicate w.numChordwisePanels []) with
  | error e => rfl
  | ok q => exact setPositions_scale _ _ _

/-- The wing built from scaled arguments. -/
noncomputable def Wing.scale (ℓ : ℝ) (w : Wing) : Wing :=
  { w with sections := w.sections.map (WingCrossSection.inUnits ℓ), spec := w.spec.scale ℓ
           panels := scalePanels ℓ w.panels }

open Classical in
/-- Building a wing from scaled arguments succeeds or fails as before, and gives the scaled wing. -/
theorem Wing.create_scaled (hℓ : ℓ ≠ 0) (sections : List WingCrossSection) (le n : V3) (sym : Bool) (u : V3) (m : ℕ)
    (sp : String) :
    Wing.create (sections.map (WingCrossSection.inUnits ℓ)) (ℓ • le) n sym u m sp
      = (Wing.create sections le n sym u m sp).map (Wing.scale ℓ) := by
  match sections with
  | [] => rfl
  | [_] => rfl
  | root :: second :: rest =>
    obtain ⟨S, hS⟩ : ∃ S, S = root :: second :: rest := ⟨_, rfl⟩
    rw [← hS]
    rw [Wing.create_two S root second rest hS,
      Wing.create_two (S.map (WingCrossSection.inUnits ℓ)) (root.inUnits ℓ) (second.inUnits ℓ)
        (rest.map (WingCrossSection.inUnits ℓ)) (by rw [hS]; rfl)]
    have h1 : (n ≠ (root.inUnits ℓ).unitNormal) ↔ n ≠ root.unitNormal := Iff.rfl
    have h2 : ((root.inUnits ℓ).leadingEdge ≠ 0) ↔ root.leadingEdge ≠ 0 := not_congr (V3.smul_eq_zero' hℓ)
    have h3 : ((S.map (WingCrossSection.inUnits ℓ)).any fun s => decide ((n.cross s.unitNormal).cross u ≠ 0))
        = S.any fun s => decide ((n.cross s.unitNormal).cross u ≠ 0) := by
      rw [List.any_map]; rfl
    have h4 : ((S.map (WingCrossSection.inUnits ℓ)).dropLast.map (·.numSpanwisePanels)).sum
        = (S.dropLast.map (·.numSpanwisePanels)).sum := by
      rw [← List.map_dropLast, List.map_map]; rfl
    have h5 : (S.map (WingCrossSection.inUnits ℓ)).map (fun s => { s with wingUnitChordwise := u })
        = (S.map fun s => { s with wingUnitChordwise := u }).map (WingCrossSection.inUnits ℓ) := by
      rw [List.map_map, List.map_map]; rfl
    simp only [h1, h2, h3, h4, h5]
    generalize (S.dropLast.map (·.numSpanwisePanels)).sum = half
    generalize (if sym = true then half * 2 else half) = N
    have h6 := meshWing_scale (ℓ := ℓ) ⟨le, n, sym, u, m, sp⟩ (S.map fun s => { s with wingUnitChordwise := u }) N
    simp only [WingSpec.scale] at h6
    rw [h6]
    split_ifs
    all_goals first
      | rfl
      | (cases meshWing ⟨le, n, sym, u, m, sp⟩ (S.map fun s => { s with wingUnitChordwise := u }) N <;> rfl)

/-! ## Reference dimensions -/

theorem projectedSpan_scaled (hℓ : 0 < ℓ) (n v : V3) : Wing.projectedSpan n (ℓ • v) = ℓ * Wing.projectedSpan n v := by
  unfold Wing.projectedSpan
  rw [V3.smul_dot, mul_smul, V3.norm_smul, abs_of_pos hℓ]

theorem Wing.scale_span (hℓ : 0 < ℓ) (w : Wing) : (w.scale ℓ).span = ℓ * w.span := by
  unfold Wing.span
  simp only [Wing.scale, WingSpec.scale, List.head?_map, List.getLast?_map, Option.map_map]
  have e : ∀ o : Option WingCrossSection,
      (o.map ((fun s : WingCrossSection => s.leadingEdge) ∘ WingCrossSection.inUnits ℓ)).getD 0
        = ℓ • ((o.map fun s => s.leadingEdge).getD 0) := by
    intro o
    cases o with
    | none => simp
    | some s => rfl
  rw [e, e, ← smul_sub, projectedSpan_scaled hℓ]
  split <;> ring

theorem Panel.scale_projectedArea (hℓ : 0 < ℓ) (p : Panel) (n : V3) :
    (p.scale ℓ).projectedArea n = ℓ ^ 2 * p.projectedArea n := by
  unfold Panel.projectedArea Panel.firstDiagonal Panel.secondDiagonal
  have e : ∀ a b : V3, (ℓ • a - ℓ • b) - ((ℓ • a - ℓ • b).dot n) • n = ℓ • ((a - b) - ((a - b).dot n) • n) := by
    intro a b
    ext <;> simp [V3.dot] <;> ring
  simp only [Panel.scale, e, V3.smul_cross, V3.cross_smul, V3.norm_smul, abs_of_pos hℓ]
  ring

theorem Wing.scale_projectedArea (hℓ : 0 < ℓ) (w : Wing) : (w.scale ℓ).projectedArea = ℓ ^ 2 * w.projectedArea := by
  unfold Wing.projectedArea
  have e : (w.scale ℓ).unitUp = w.unitUp := rfl
  have e2 : (w.scale ℓ).panels.flatten = w.panels.flatten.map (Panel.scale ℓ) := by
    simp [Wing.scale, scalePanels, List.map_flatten]
  rw [e, e2, List.map_map, ← List.sum_map_mul_left]
  congr 1
  apply List.map_congr_left
  intro p _
  exact p.scale_projectedArea hℓ _

theorem Wing.scale_mac (hℓ : 0 < ℓ) (w : Wing) : (w.scale ℓ).meanAerodynamicChord = ℓ * w.meanAerodynamicChord := by
  unfold Wing.meanAerodynamicChord
  rw [Wing.scale_projectedArea hℓ]
  have e : List.zip (w.scale ℓ).sections (w.scale ℓ).sections.tail
      = (List.zip w.sections w.sections.tail).map fun s => (s.1.inUnits ℓ, s.2.inUnits ℓ) := by
    simp only [Wing.scale]
    rw [← List.map_tail, List.zip_map]
    rfl
  have e2 : ((List.zip (w.scale ℓ).sections (w.scale ℓ).sections.tail).map
      (Wing.macTerm (w.scale ℓ).spec.unitNormal)).sum
      = ℓ ^ 3 * ((List.zip w.sections w.sections.tail).map (Wing.macTerm w.spec.unitNormal)).sum := by
    rw [e, List.map_map, ← List.sum_map_mul_left]
    congr 1
    apply List.map_congr_left
    intro s _
    simp only [Function.comp, Wing.macTerm, WingCrossSection.inUnits, ← smul_sub]
    rw [show (w.scale ℓ).spec.unitNormal = w.spec.unitNormal from rfl, projectedSpan_scaled hℓ]
    ring
  rw [e2]
  have e3 : (w.scale ℓ).spec.symmetric = w.spec.symmetric := rfl
  rw [e3]
  have hne : ℓ ≠ 0 := hℓ.ne'
  by_cases h0 : w.projectedArea = 0
  · simp [h0]
  · split <;> field_simp

/-! ## Airplanes -/

/-- The airplane built from scaled arguments. -/
noncomputable def Airplane.scale (ℓ : ℝ) (a : Airplane) : Airplane :=
  { a with wings := a.wings.map (Wing.scale ℓ), xyzRef := ℓ • a.xyzRef, sRef := ℓ ^ 2 * a.sRef
           cRef := ℓ * a.cRef, bRef := ℓ * a.bRef }

theorem Wing.Scaled.eq (hℓ : 0 < ℓ) {w w' : Wing} (h : Wing.Scaled ℓ w w') : w' = w.scale ℓ := by
  obtain ⟨S, le, n, sym, u, m, sp, h1, h2⟩ := h
  rw [Wing.create_scaled hℓ.ne', h1] at h2
  cases h2; rfl

theorem Wing.Scaled.made {w w' : Wing} (h : Wing.Scaled ℓ w w') : w.Made ∧ w'.Made := by
  obtain ⟨S, le, n, sym, u, m, sp, h1, h2⟩ := h
  exact ⟨⟨_, _, _, _, _, _, _, h1⟩, _, _, _, _, _, _, _, h2⟩

theorem Wing.Scaled.of_made (hℓ : 0 < ℓ) {w : Wing} (h : w.Made) : Wing.Scaled ℓ w (w.scale ℓ) := by
  obtain ⟨S, le, n, sym, u, m, sp, h1⟩ := h
  exact ⟨S, le, n, sym, u, m, sp, h1, by rw [Wing.create_scaled hℓ.ne', h1]; rfl⟩

theorem Airplane.Scaled.eq (hℓ : 0 < ℓ) {a a' : Airplane} (h : Airplane.Scaled ℓ a a') : a' = a.scale ℓ := by
  obtain ⟨wings, wings', ref, weight, s, c, b, h1, h2, hw⟩ := h
  have hwings : wings' = wings.map (Wing.scale ℓ) := by
    clear h1 h2
    induction hw with
    | nil => rfl
    | cons h _ ih => rw [List.map_cons, h.eq hℓ, ih]
  subst hwings
  cases wings with
  | nil => cases h1
  | cons main rest =>
    simp only [List.map_cons, Airplane.create, Except.ok.injEq] at h1 h2
    rw [← h1, ← h2]
    simp only [Airplane.scale, Wing.scale_projectedArea hℓ, Wing.scale_mac hℓ, Wing.scale_span hℓ, List.map_cons,
      List.map_map]
    congr 1
    · cases s <;> rfl
    · cases c <;> rfl
    · cases b <;> rfl

theorem Airplane.Scaled.made {a a' : Airplane} (h : Airplane.Scaled ℓ a a') : a.Made ∧ a'.Made := by
  obtain ⟨wings, wings', ref, weight, s, c, b, h1, h2, hw⟩ := h
  refine ⟨⟨wings, ref, weight, s, c, b, h1, ?_⟩, wings', _, weight, _, _, _, h2, ?_⟩
  · intro w hw'
    obtain ⟨i, hi, rfl⟩ := List.getElem_of_mem hw'
    exact (List.forall₂_iff_get.mp hw).2 i hi (by rw [← hw.length_eq]; exact hi) |>.made.1
  · intro w hw'
    obtain ⟨i, hi, rfl⟩ := List.getElem_of_mem hw'
    exact (List.forall₂_iff_get.mp hw).2 i (by rw [hw.length_eq]; exact hi) hi |>.made.2

end Ptera
