import Verif.Spec.Moved
import Verif.Lemmas.Mesh
import Verif.Lemmas.Rotations
import Verif.Lemmas.Similar
import Verif.Props.Frames

/-! A wing built from turned and moved arguments is the turned and moved wing. -/

namespace Ptera

open List

variable {M : M3} {t : V3}

/-- A panel turned and moved. -/
def Panel.move (M : M3) (t : V3) (p : Panel) : Panel :=
  { p with frontLeft := M.mulVec p.frontLeft + t, frontRight := M.mulVec p.frontRight + t
           backLeft := M.mulVec p.backLeft + t, backRight := M.mulVec p.backRight + t }

theorem angleAxis_turned (hM : M.IsRot) (θ : ℝ) (n v : V3) :
    (angleAxisRotationMatrix θ (M.mulVec n)).mulVec (M.mulVec v)
      = M.mulVec ((angleAxisRotationMatrix θ n).mulVec v) := by
  unfold angleAxisRotationMatrix
  simp only [Bool.false_eq_true, if_false]
  rw [hM.1.norm, ← M3.mulVec_smul, rodrigues_mulVec, rodrigues_mulVec]
  simp only [M3.mulVec_add, M3.mulVec_smul, V3.smul_dot, V3.smul_cross, hM.1.dot, hM.cross]

theorem reflect_turned (hM : M.IsOrtho) (p n q : V3) :
    reflectPointAcrossPlane (M.mulVec p + t) (M.mulVec n) (M.mulVec q + t)
      = M.mulVec (reflectPointAcrossPlane p n q) + t := by
  rw [reflect_eq, reflect_eq, add_sub_add_right_eq_sub, ← M3.mulVec_sub, hM.dot, M3.mulVec_sub, M3.mulVec_smul]
  abel

/-- The arguments of a wing as the mesher sees them, turned and moved. -/
def WingSpec.move (M : M3) (t : V3) (w : WingSpec) : WingSpec :=
  { w with leadingEdge := M.mulVec w.leadingEdge + t, unitNormal := M.mulVec w.unitNormal
           unitChordwise := M.mulVec w.unitChordwise }

/-- A cross section as the mesher sees it, turned. -/
def WingCrossSection.move (M : M3) (s : WingCrossSection) : WingCrossSection :=
  { s with leadingEdge := M.mulVec s.leadingEdge, unitNormal := M.mulVec s.unitNormal
           wingUnitChordwise := M.mulVec s.wingUnitChordwise }

theorem unitChordwise_move (hM : M.IsRot) (s : WingCrossSection) :
    (s.move M).unitChordwise = M.mulVec s.unitChordwise := angleAxis_turned hM _ _ _

theorem unitUp_move (hM : M.IsRot) (s : WingCrossSection) : (s.move M).unitUp = M.mulVec s.unitUp := by
  unfold WingCrossSection.unitUp
  rw [unitChordwise_move hM, ← hM.cross]; rfl

theorem sectionMcl_move (hM : M.IsRot) (q : V3) (s : WingCrossSection) (l : List (ℝ × ℝ)) :
    sectionMcl (M.mulVec q + t) (s.move M) l = (sectionMcl q s l).map fun p => M.mulVec p + t := by
  unfold sectionMcl
  rw [List.map_map]
  apply List.map_congr_left
  intro p _
  simp only [Function.comp, unitChordwise_move hM, unitUp_move hM, M3.mulVec_add, M3.mulVec_smul]
  simp only [WingCrossSection.move]
  abel

theorem sectionVertex_move (hM : M.IsRot) (w : WingSpec) (inner outer : WingCrossSection) (ia oa : Airfoil) (i j : ℕ)
    (hi : i < w.numChordwisePanels + 1) :
    sectionVertex (w.move M t) (inner.move M) (outer.move M) ia oa i j
      = M.mulVec (sectionVertex w inner outer ia oa i j) + t := by
  have key : ∀ (s : WingCrossSection) (a : Airfoil),
      (sectionMcl (w.move M t).leadingEdge (s.move M) (mclVectors a (w.move M t).chordwiseCoordinates)).getD i 0
        = M.mulVec ((sectionMcl w.leadingEdge s (mclVectors a w.chordwiseCoordinates)).getD i 0) + t := by
    intro s a
    have e : (w.move M t).chordwiseCoordinates = w.chordwiseCoordinates := rfl
    have e2 : (w.move M t).leadingEdge = M.mulVec w.leadingEdge + t := rfl
    have hl := sectionMcl_length w.leadingEdge s a w
    rw [e, e2, sectionMcl_move hM, List.getD_eq_getElem?_getD, List.getD_eq_getElem?_getD, List.getElem?_map,
      List.getElem?_eq_getElem (by omega)]
    rfl
  unfold sectionVertex
  have e3 : (inner.move M).spanwiseCoordinates = inner.spanwiseCoordinates := rfl
  simp only [key, e3, M3.mulVec_add, M3.mulVec_smul, M3.mulVec_sub]
  rw [add_sub_add_right_eq_sub]
  abel

/-- Turning and moving an array of panels. -/
def movePanels (M : M3) (t : V3) : List (List Panel) → List (List Panel) := List.map (List.map (Panel.move M t))

theorem movePanels_grid (m n : ℕ) (f : ℕ → ℕ → Panel) :
    movePanels M t (grid m n f) = grid m n fun i j => (f i j).move M t := by
  simp [movePanels, grid, Function.comp_def]

theorem rightSection_move (hM : M.IsRot) (w : WingSpec) (inner outer : WingCrossSection) :
    rightSection (w.move M t) (inner.move M) (outer.move M) = (rightSection w inner outer).map (movePanels M t) := by
  unfold rightSection
  have e1 : (inner.move M).airfoil = inner.airfoil := rfl
  have e2 : (outer.move M).airfoil = outer.airfoil := rfl
  have e3 : (inner.move M).deflection = inner.deflection := rfl
  have e4 : (inner.move M).hinge = inner.hinge := rfl
  rw [e1, e2, e3, e4]
  simp only [bind, Except.bind]
  cases inner.airfoil.addControlSurface inner.deflection inner.hinge with
  | error e => rfl
  | ok ia =>
    cases outer.airfoil.addControlSurface inner.deflection inner.hinge with
    | error e => rfl
    | ok oa =>
      have e5 : (w.move M t).numChordwisePanels = w.numChordwisePanels := rfl
      have e6 : (inner.move M).numSpanwisePanels = inner.numSpanwisePanels := rfl
      by_cases h0 : w.numChordwisePanels = 0
      · simp [e5, h0, Except.map]
      · obtain ⟨a1, a2, a3, a4⟩ := sectionVertices_eq (w.move M t) (inner.move M) (outer.move M) ia oa
        obtain ⟨b1, b2, b3, b4⟩ := sectionVertices_eq w inner outer ia oa
        simp only [e5, e6] at a1 a2 a3 a4
        simp only [e5, e6, h0, if_false, a1, a2, a3, a4, b1, b2, b3, b4, pure, Except.pure, Except.map]
        have hm : 0 < w.numChordwisePanels := by omega
        rw [sectionPanels_grid _ _ hm, sectionPanels_grid _ _ hm, movePanels_grid]
        congr 1
        apply grid_congr
        intro i hi j hj
        simp only [Panel.move]
        rw [sectionVertex_move hM _ _ _ _ _ _ _ (by omega), sectionVertex_move hM _ _ _ _ _ _ _ (by omega),
          sectionVertex_move hM _ _ _ _ _ _ _ (by omega), sectionVertex_move hM _ _ _ _ _ _ _ (by omega)]

theorem leftSection_move (hM : M.IsRot) (w : WingSpec) (inner outer : WingCrossSection)
    (hm : 0 < w.numChordwisePanels) :
    leftSection (w.move M t) (inner.move M) (outer.move M) = (leftSection w inner outer).map (movePanels M t) := by
  unfold leftSection
  have e0 : (if (inner.move M).controlSurfaceType = "symmetric" then (inner.move M).deflection
      else -(inner.move M).deflection)
      = if inner.controlSurfaceType = "symmetric" then inner.deflection else -inner.deflection := rfl
  have e1 : (inner.move M).airfoil = inner.airfoil := rfl
  have e2 : (outer.move M).airfoil = outer.airfoil := rfl
  have e4 : (inner.move M).hinge = inner.hinge := rfl
  rw [e0, e1, e2, e4]
  generalize (if inner.controlSurfaceType = "symmetric" then inner.deflection else -inner.deflection) = d
  simp only [bind, Except.bind]
  cases inner.airfoil.addControlSurface d inner.hinge with
  | error e => rfl
  | ok ia =>
    cases outer.airfoil.addControlSurface d inner.hinge with
    | error e => rfl
    | ok oa =>
      have e5 : (w.move M t).numChordwisePanels = w.numChordwisePanels := rfl
      have e6 : (inner.move M).numSpanwisePanels = inner.numSpanwisePanels := rfl
      by_cases hn : inner.numSpanwisePanels = 0
      · simp only [e6, if_pos hn]; rfl
      simp only [e6, if_neg hn]
      obtain ⟨a1, a2, a3, a4⟩ := sectionVertices_eq (w.move M t) (inner.move M) (outer.move M) ia oa
      obtain ⟨b1, b2, b3, b4⟩ := sectionVertices_eq w inner outer ia oa
      simp only [e5, e6] at a1 a2 a3 a4
      simp only [SectionVertices.reflect, e5, a1, a2, a3, a4, b1, b2, b3, b4, pure, Except.pure, Except.map]
      simp only [grid_map, sectionPanels_grid _ _ hm, movePanels_grid]
      congr 1
      apply grid_congr
      intro i hi j hj
      simp only [Panel.move]
      rw [sectionVertex_move hM _ _ _ _ _ _ _ (by omega), sectionVertex_move hM _ _ _ _ _ _ _ (by omega),
        sectionVertex_move hM _ _ _ _ _ _ _ (by omega), sectionVertex_move hM _ _ _ _ _ _ _ (by omega)]
      have e7 : (w.move M t).unitNormal = M.mulVec w.unitNormal := rfl
      have e8 : (w.move M t).leadingEdge = M.mulVec w.leadingEdge + t := rfl
      simp only [e7, e8, reflect_turned hM.1]

theorem movePanels_hstack (a b : List (List Panel)) :
    hstack (movePanels M t a) (movePanels M t b) = movePanels M t (hstack a b) := by
  unfold hstack movePanels
  rw [List.zipWith_map, List.map_zipWith]
  simp only [List.map_append]

theorem movePanels_reverse (a : List (List Panel)) :
    (movePanels M t a).map List.reverse = movePanels M t (a.map List.reverse) := by
  unfold movePanels
  rw [List.map_map, List.map_map]
  apply List.map_congr_left
  intro l _
  simp [Function.comp]

theorem meshStep_move (hM : M.IsRot) (w : WingSpec) (panels : List (List Panel))
    (s : WingCrossSection × WingCrossSection) :
    meshStep (w.move M t) (movePanels M t panels) (s.1.move M, s.2.move M)
      = (meshStep w panels s).map (movePanels M t) := by
  unfold meshStep
  have es : (w.move M t).symmetric = w.symmetric := rfl
  simp only [es]
  rw [rightSection_move hM]
  cases hr : rightSection w s.1 s.2 with
  | error e => rfl
  | ok r =>
    obtain ⟨-, -, -, -, hm, -⟩ := rightSection_ok _ _ _ _ hr
    rw [leftSection_move hM _ _ _ hm]
    cases w.symmetric
    · simp only [bind, Except.bind, Except.map, pure, Except.pure, movePanels_hstack, Bool.false_eq_true, if_false]
    · simp only [if_true]
      cases leftSection w s.1 s.2 with
      | error e => rfl
      | ok l =>
        simp only [bind, Except.bind, Except.map, pure, Except.pure, movePanels_hstack, movePanels_reverse]

theorem meshFold_move (hM : M.IsRot) (w : WingSpec) (pairs : List (WingCrossSection × WingCrossSection)) :
    ∀ panels : List (List Panel),
      (pairs.map fun s => (s.1.move M, s.2.move M)).foldlM (meshStep (w.move M t)) (movePanels M t panels)
        = (pairs.foldlM (meshStep w) panels).map (movePanels M t) := by
  induction pairs with
  | nil => intro panels; rfl
  | cons s pairs ih =>
    intro panels
    rw [List.map_cons, List.foldlM_cons, List.foldlM_cons, meshStep_move hM]
    cases meshStep w panels s with
    | error e => rfl
    | ok q => exact ih q

theorem setPositions_move (m n : ℕ) (panels : List (List Panel)) :
    setPositions m n (movePanels M t panels) = (setPositions m n panels).map (movePanels M t) := by
  unfold setPositions
  have h1 : (movePanels M t panels).length = panels.length := by simp [movePanels]
  have h2 : (((movePanels M t panels).take m).any fun row => decide (row.length < n))
      = ((panels.take m).any fun row => decide (row.length < n)) := by
    simp [movePanels, ← List.map_take, List.any_map, Function.comp_def]
  rw [h1, h2]
  split
  · rfl
  · simp only [Except.map]
    congr 1
    unfold movePanels
    have key : ∀ {α : Type} (f : α → α) (g : ℕ → α → α) (l : List α), (∀ i x, g i (f x) = f (g i x)) →
        (l.map f).mapIdx g = (l.mapIdx g).map f := by
      intro α f g l h
      apply List.ext_getElem (by simp)
      intro i h1 h2
      simp [h]
    apply key
    intro i row
    apply key
    intro j p
    split <;> rfl

theorem meshWing_move (hM : M.IsRot) (w : WingSpec) (sections : List WingCrossSection) (n : ℕ) :
    meshWing (w.move M t) (sections.map (WingCrossSection.move M)) n
      = (meshWing w sections n).map (movePanels M t) := by
  unfold meshWing
  have e1 : (w.move M t).numChordwisePanels = w.numChordwisePanels := rfl
  have e2 : List.zip (sections.map (WingCrossSection.move M)) (sections.map (WingCrossSection.move M)).tail
      = (List.zip sections sections.tail).map fun s => (s.1.move M, s.2.move M) := by
    rw [← List.map_tail, List.zip_map]
    rfl
  have e3 : List.replicate w.numChordwisePanels ([] : List Panel)
      = movePanels M t (List.replicate w.numChordwisePanels []) := by simp [movePanels]
  rw [e1, e2, e3, meshFold_move hM, ← e3]
  cases (List.zip sections sections.tail).foldlM (meshStep w) (List.replicate w.numChordwisePanels []) with
  | error e => rfl
  | ok q => exact setPositions_move _ _ _

/-- The wing built from turned and moved arguments. -/
def Wing.move (M : M3) (t : V3) (w : Wing) : Wing :=
  { w with sections := w.sections.map (WingCrossSection.move M), spec := w.spec.move M t
           panels := movePanels M t w.panels }

theorem M3.IsOrtho.mulVec_inj (hM : M.IsOrtho) {v w : V3} : M.mulVec v = M.mulVec w ↔ v = w := by
  constructor
  · intro h
    rw [← hM.transpose_mulVec v, h, hM.transpose_mulVec]
  · rintro rfl; rfl

theorem M3.IsOrtho.mulVec_eq_zero (hM : M.IsOrtho) {v : V3} : M.mulVec v = 0 ↔ v = 0 := by
  have h0 : M.mulVec 0 = 0 := by ext <;> simp [M3.mulVec, V3.dot]
  constructor
  · intro h
    exact hM.mulVec_inj.mp (h.trans h0.symm)
  · rintro rfl; exact h0

open Classical in
theorem Wing.create_two (S : List WingCrossSection) (root second : WingCrossSection) (rest : List WingCrossSection)
    (hS : S = root :: second :: rest) (le n : V3) (sym : Bool) (u : V3) (m : ℕ) (sp : String) :
    Wing.create S le n sym u m sp =
      (if sp ∉ ["cosine", "uniform"] then .error .exception
      else if n ≠ root.unitNormal then .error .exception
      else if root.leadingEdge ≠ 0 then .error .exception
      else if u.dot n ≠ 0 then .error .exception
      else
        let half := (S.dropLast.map (·.numSpanwisePanels)).sum
        let numSpanwise := if sym then half * 2 else half
        if S.any fun s => decide (((n.cross s.unitNormal).cross u) ≠ 0) then .error .exception
        else do
          let spec : WingSpec := ⟨le, n, sym, u, m, sp⟩
          let sections := S.map fun s => { s with wingUnitChordwise := u }
          let panels ← meshWing spec sections numSpanwise
          return { sections, spec, numSpanwisePanels := numSpanwise, numPanels := numSpanwise * m, panels }) := by
  subst hS; rfl

open Classical in
/-- Building a wing from turned and moved arguments succeeds or fails as before, and gives the turned and moved
wing. -/
theorem Wing.create_moved (hM : M.IsRot) (sections : List WingCrossSection) (le n : V3) (sym : Bool) (u : V3) (m : ℕ)
    (sp : String) :
    Wing.create (sections.map (WingCrossSection.turned M)) (M.mulVec le + t) (M.mulVec n) sym (M.mulVec u) m sp
      = (Wing.create sections le n sym u m sp).map (Wing.move M t) := by
  match sections with
  | [] => rfl
  | [_] => rfl
  | root :: second :: rest =>
    obtain ⟨S, hS⟩ : ∃ S, S = root :: second :: rest := ⟨_, rfl⟩
    rw [← hS]
    rw [Wing.create_two S root second rest hS,
      Wing.create_two (S.map (WingCrossSection.turned M)) (root.turned M) (second.turned M)
        (rest.map (WingCrossSection.turned M)) (by rw [hS]; rfl)]
    have h1 : (M.mulVec n ≠ (root.turned M).unitNormal) ↔ n ≠ root.unitNormal := not_congr hM.1.mulVec_inj
    have h2 : ((root.turned M).leadingEdge ≠ 0) ↔ root.leadingEdge ≠ 0 := not_congr hM.1.mulVec_eq_zero
    have h3 : ((S.map (WingCrossSection.turned M)).any fun s =>
        decide (((M.mulVec n).cross s.unitNormal).cross (M.mulVec u) ≠ 0))
        = S.any fun s => decide ((n.cross s.unitNormal).cross u ≠ 0) := by
      rw [List.any_map]
      congr 1
      funext s
      have e : ((M.mulVec n).cross (s.turned M).unitNormal).cross (M.mulVec u)
          = M.mulVec ((n.cross s.unitNormal).cross u) := by
        rw [show (s.turned M).unitNormal = M.mulVec s.unitNormal from rfl, hM.cross, hM.cross]
      simp only [Function.comp]
      exact decide_eq_decide.mpr (not_congr (by rw [e]; exact hM.1.mulVec_eq_zero))
    have h4 : ((S.map (WingCrossSection.turned M)).dropLast.map (·.numSpanwisePanels)).sum
        = (S.dropLast.map (·.numSpanwisePanels)).sum := by
      rw [← List.map_dropLast, List.map_map]; rfl
    have h5 : (S.map (WingCrossSection.turned M)).map (fun s => { s with wingUnitChordwise := M.mulVec u })
        = (S.map fun s => { s with wingUnitChordwise := u }).map (WingCrossSection.move M) := by
      rw [List.map_map, List.map_map]; rfl
    simp only [h1, h2, h3, h4, h5, hM.1.dot]
    generalize (S.dropLast.map (·.numSpanwisePanels)).sum = half
    generalize (if sym = true then half * 2 else half) = N
    have h6 := meshWing_move (t := t) hM ⟨le, n, sym, u, m, sp⟩ (S.map fun s => { s with wingUnitChordwise := u }) N
    simp only [WingSpec.move] at h6
    rw [h6]
    split_ifs
    all_goals first
      | rfl
      | (cases meshWing ⟨le, n, sym, u, m, sp⟩ (S.map fun s => { s with wingUnitChordwise := u }) N <;> rfl)

end Ptera
