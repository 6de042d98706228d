import Verif.Lemmas.FlatPlate
import Verif.Props.Watertight
import Verif.Lemmas.MadePanels
import Mathlib.Tactic.IntervalCases

/-! Flat rectangular wings with one panel per wing section: concrete cases for the solvers. -/

namespace Ptera

noncomputable section

/-- Sections of a flat, unswept, rectangular wing of the given chord, at the given spanwise positions. -/
def stripSections (c : ℝ) (ys : List ℝ) : List WingCrossSection :=
  ys.map fun y => plateSection ⟨0, y, 0⟩ c 0 0 "symmetric" 1 "uniform"

/-- The panel between two such sections of a wing at height `z`. -/
def stripPanel (z c y₀ y₁ : ℝ) (n j : ℕ) : Panel :=
  { frontLeft := ⟨0, y₀, z⟩, frontRight := ⟨0, y₁, z⟩, backLeft := ⟨c, y₀, z⟩, backRight := ⟨c, y₁, z⟩
    isLeadingEdge := true, isTrailingEdge := true, isRightEdge := decide (j + 1 = n), isLeftEdge := decide (j = 0)
    localChordwise := 0, localSpanwise := j }

theorem strip_point (spec : WingSpec) (z c y : ℝ) (i : ℕ) (hi : i < 2) (h1 : spec.chordwiseCoordinates = linspace 0 1 2)
    (h2 : spec.leadingEdge = ⟨0, 0, z⟩) (h3 : spec.unitChordwise = ⟨1, 0, 0⟩) (a : Airfoil)
    (ha : flatPlate.addControlSurface 0 (1 / 2) = .ok a) :
    sectionPoint spec { plateSection ⟨0, y, 0⟩ c 0 0 "symmetric" 1 "uniform" with
      wingUnitChordwise := spec.unitChordwise } a i = ⟨if i = 0 then 0 else c, y, z⟩ := by
  rw [flatPlate_flap 0 _ (by norm_num) (by norm_num) (by norm_num)] at ha
  simp only [Except.ok.injEq] at ha
  have t2 : flapTip 0 (1 / 2) = (1, 0) := by simp [flapTip, radians]
  rw [t2] at ha
  subst ha
  unfold sectionPoint mclVectors
  rw [h1, npInterp_one_bent (1, 0) (by simp [Prod.ext_iff]), h2, h3]
  interval_cases i <;>
    · ext <;> simp [sectionMcl, plateSection, WingCrossSection.unitChordwise, WingCrossSection.unitUp, V3.cross,
        angleAxisRotationMatrix, rodrigues, M3.mulVec, V3.dot]

theorem strip_wing (z c : ℝ) (ys : List ℝ) (h2 : 2 ≤ ys.length) (h0 : ys.head? = some 0) :
    ∃ w, Wing.create (stripSections c ys) ⟨0, 0, z⟩ ⟨0, 1, 0⟩ false ⟨1, 0, 0⟩ 1 "uniform" = .ok w ∧ w.Made ∧
      w.numSpanwisePanels = ys.length - 1 ∧ w.panels.length = 1 ∧ w.span = |ys.getLastD 0| ∧
      ∀ j y₀ y₁, ys[j]? = some y₀ → ys[j + 1]? = some y₁ →
        cell w.panels 0 j = some (stripPanel z c y₀ y₁ (ys.length - 1) j) := by
  have hroot : ∀ r, (stripSections c ys)[0]? = some r → r.leadingEdge = 0 := by
    intro r hr
    rw [← List.head?_eq_getElem?] at hr
    unfold stripSections at hr
    rw [List.head?_map, h0] at hr
    simp at hr
    rw [← hr]; rfl
  obtain ⟨w, hw⟩ := plateWing_accepted (stripSections c ys) false 1 one_pos "uniform" (by simp)
    (by simpa [stripSections] using h2) hroot
    (by
      intro s hs
      obtain ⟨y, _, rfl⟩ := List.mem_map.mp hs
      exact ⟨_, _, _, _, _, _, _, rfl, by norm_num⟩) ⟨0, 0, z⟩
  obtain ⟨hs, ha⟩ := Wing.create_ok _ _ _ _ _ _ _ w hw
  have hn : w.numSpanwisePanels = ys.length - 1 := by
    rw [ha.nspan, hs]
    simp only [Bool.false_eq_true, if_false]
    unfold stripSections
    rw [← List.map_dropLast, List.map_map]
    have : ((fun s : WingCrossSection => s.numSpanwisePanels) ∘ fun y => plateSection ⟨0, y, 0⟩ c 0 0 "symmetric" 1
      "uniform") = fun _ => 1 := by funext y; rfl
    rw [this]
    simp
  refine ⟨w, hw, ⟨_, _, _, _, _, _, _, hw⟩, hn, ?_, ?_, ?_⟩
  · exact (C18_wing_counts _ _ _ _ _ _ _ w hw).1
  · unfold Wing.span
    rw [ha.stored, hs]
    simp only [Bool.false_eq_true, if_false, withChordwise, stripSections, List.map_map]
    rw [List.head?_map, h0, List.getLast?_map]
    have hne : ys ≠ [] := by intro e; rw [e] at h2; simp at h2
    rw [List.getLast?_eq_some_getLast hne]
    have hl : ys.getLastD 0 = ys.getLast hne := by rw [List.getLastD_eq_getLast?, List.getLast?_eq_some_getLast hne]; rfl
    rw [hl]
    have e : ∀ y : ℝ, Wing.projectedSpan ⟨0, 1, 0⟩ ((⟨0, y, 0⟩ : V3) - ⟨0, 0, 0⟩) = |y| := by
      intro y
      simp [Wing.projectedSpan, V3.dot, V3.norm, Real.sqrt_mul_self_eq_abs]
    simpa [plateSection] using e _
  · intro j y₀ y₁ hj hj1
    have hsplit : ys = ys.take j ++ y₀ :: y₁ :: ys.drop (j + 2) := by
      obtain ⟨l1, e1⟩ := List.getElem?_eq_some_iff.mp hj
      obtain ⟨l2, e2⟩ := List.getElem?_eq_some_iff.mp hj1
      conv_lhs => rw [← List.take_append_drop j ys, List.drop_eq_getElem_cons l1, List.drop_eq_getElem_cons l2]
      rw [e1, e2]
    have hi : 0 < w.spec.numChordwisePanels := by rw [hs]; norm_num
    obtain ⟨⟨ia, oa, e1, e2, hR⟩, _⟩ := ha.section ((stripSections c (ys.take j)))
      (plateSection ⟨0, y₀, 0⟩ c 0 0 "symmetric" 1 "uniform") (plateSection ⟨0, y₁, 0⟩ c 0 0 "symmetric" 1 "uniform")
      (stripSections c (ys.drop (j + 2)))
      (by conv_lhs => rw [hsplit]
          simp [stripSections]) 0 hi
    have h1 := hR 0 (by simp [plateSection])
    have hsym : w.spec.symmetric = false := by rw [hs]
    have hjl : j ≤ ys.length := (List.getElem?_eq_some_iff.mp hj).1.le
    have hoff : ((stripSections c (ys.take j)).map (·.numSpanwisePanels)).sum = j := by
      unfold stripSections
      rw [List.map_map]
      have : ((fun s : WingCrossSection => s.numSpanwisePanels) ∘ fun y => plateSection ⟨0, y, 0⟩ c 0 0 "symmetric" 1
        "uniform") = fun _ => 1 := by funext y; rfl
      rw [this]
      simp [hjl]
    simp only [hsym, Bool.false_eq_true, if_false, hoff, zero_add, add_zero] at h1
    rw [h1, hn]
    have hcc : w.spec.chordwiseCoordinates = linspace 0 1 2 := by rw [hs]; simp [WingSpec.chordwiseCoordinates]
    have hle : w.spec.leadingEdge = ⟨0, 0, z⟩ := by rw [hs]
    have hch : w.spec.unitChordwise = ⟨1, 0, 0⟩ := by rw [hs]
    have hm : w.spec.numChordwisePanels = 1 := by rw [hs]
    have v0 : ∀ (t : WingCrossSection) (i : ℕ), i < 2 → sectionVertex w.spec { plateSection ⟨0, y₀, 0⟩ c 0 0 "symmetric" 1 "uniform"
        with wingUnitChordwise := w.spec.unitChordwise } t ia oa i 0 = ⟨if i = 0 then 0 else c, y₀, z⟩ := by
      intro t i hi2
      rw [sectionVertex_inner _ _ _ _ _ _ (by simp [plateSection])]
      exact strip_point w.spec z c y₀ i hi2 hcc hle hch ia e1
    have v1 : ∀ (i : ℕ), i < 2 → sectionVertex w.spec { plateSection ⟨0, y₀, 0⟩ c 0 0 "symmetric" 1 "uniform"
        with wingUnitChordwise := w.spec.unitChordwise } { plateSection ⟨0, y₁, 0⟩ c 0 0 "symmetric" 1 "uniform"
        with wingUnitChordwise := w.spec.unitChordwise } ia oa i (0 + 1) = ⟨if i = 0 then 0 else c, y₁, z⟩ := by
      intro i hi2
      have := sectionVertex_outer w.spec { plateSection ⟨0, y₀, 0⟩ c 0 0 "symmetric" 1 "uniform"
        with wingUnitChordwise := w.spec.unitChordwise } { plateSection ⟨0, y₁, 0⟩ c 0 0 "symmetric" 1 "uniform"
        with wingUnitChordwise := w.spec.unitChordwise } ia oa i (by simp [plateSection])
      refine Eq.trans this ?_
      exact strip_point w.spec z c y₁ i hi2 hcc hle hch oa e2
    simp only [rightPanel, Panel.place, stripPanel, Option.some.injEq]
    rw [v0 _ 0 (by norm_num), v0 _ (0 + 1) (by norm_num), v1 0 (by norm_num), v1 (0 + 1) (by norm_num)]
    simp [hm]

end

end Ptera
