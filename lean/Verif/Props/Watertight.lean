import Verif.Props.Mesh
import Verif.Props.Construction

/-!
# Properties C20 and C21, section by section

`halfSpan sections` is the number of spanwise panels of one side. Columns of the right (or only) side start at
`base = halfSpan` (`0` for an asymmetric wing); on the left side of a symmetric wing column numbers run inwards.
-/

namespace Ptera

open List

/-- C20: within one wing section (between sections `s` and `t`) neighbouring panels always share their edge, on the
right side (column `base + off + k`) and on the mirrored side. -/
theorem C20_within_section (sections : List WingCrossSection) (le n : V3) (sym : Bool) (u : V3) (m : ℕ)
    (sp : String) (w : Wing) (h : Wing.create sections le n sym u m sp = .ok w)
    (pre : List WingCrossSection) (s t : WingCrossSection) (post : List WingCrossSection)
    (hS : sections = pre ++ s :: t :: post) (k : ℕ) (hk : k + 1 < s.numSpanwisePanels) (i j : ℕ)
    (hj : j = (if sym then halfSpan sections else 0) + ((pre.map (·.numSpanwisePanels)).sum + k) ∨
      sym = true ∧ j + 1 + ((pre.map (·.numSpanwisePanels)).sum + k + 1) = halfSpan sections)
    (p q : Panel) (hp : cell w.panels i j = some p) (hq : cell w.panels i (j + 1) = some q) :
    p.frontRight = q.frontLeft ∧ p.backRight = q.backLeft := by
  obtain ⟨hs, ha⟩ := Wing.create_ok sections le n sym u m sp w h
  have hi := (cell_some_row ha hp).1
  have hsym : w.spec.symmetric = sym := by rw [hs]
  obtain ⟨⟨ia, oa, _, _, hR⟩, hL⟩ := ha.section pre s t post hS i hi
  rw [hsym] at hR hL
  rcases hj with rfl | ⟨hsy, hj⟩
  · have h1 := hR k (by omega)
    have h2 := hR (k + 1) hk
    rw [← add_assoc _ k 1, ← add_assoc] at h2
    rw [hp] at h1
    rw [hq] at h2
    cases h1
    cases h2
    exact ⟨rfl, rfl⟩
  · obtain ⟨ja, ka, _, _, hL⟩ := hL hsy
    obtain ⟨_, h1⟩ := hL k (by omega)
    obtain ⟨_, h2⟩ := hL (k + 1) hk
    rw [show halfSpan sections - 1 - ((pre.map (·.numSpanwisePanels)).sum + k) = j + 1 by omega, hq] at h1
    rw [show halfSpan sections - 1 - ((pre.map (·.numSpanwisePanels)).sum + (k + 1)) = j by omega, hp] at h2
    cases h1
    cases h2
    exact ⟨rfl, rfl⟩

/-- C20: across the border at section `t` between two wing sections, neighbouring panels share their edge if the
control surfaces on both sides agree. -/
theorem C20_across_border (sections : List WingCrossSection) (le n : V3) (sym : Bool) (u : V3) (m : ℕ)
    (sp : String) (w : Wing) (h : Wing.create sections le n sym u m sp = .ok w)
    (pre : List WingCrossSection) (s t v : WingCrossSection) (post : List WingCrossSection)
    (hS : sections = pre ++ s :: t :: v :: post)
    (hs0 : 0 < s.numSpanwisePanels) (ht0 : 0 < t.numSpanwisePanels) (hd : s.deflection = t.deflection)
    (hh : s.hinge = t.hinge) (hty : s.controlSurfaceType = t.controlSurfaceType) (i j : ℕ)
    (hj : j + 1 = (if sym then halfSpan sections else 0) + ((pre.map (·.numSpanwisePanels)).sum
        + s.numSpanwisePanels) ∨
      sym = true ∧ j + 1 + ((pre.map (·.numSpanwisePanels)).sum + s.numSpanwisePanels) = halfSpan sections)
    (p q : Panel) (hp : cell w.panels i j = some p) (hq : cell w.panels i (j + 1) = some q) :
    p.frontRight = q.frontLeft ∧ p.backRight = q.backLeft := by
  obtain ⟨hs, ha⟩ := Wing.create_ok sections le n sym u m sp w h
  have hi := (cell_some_row ha hp).1
  have hsym : w.spec.symmetric = sym := by rw [hs]
  obtain ⟨⟨ia, oa, _, e2, hR⟩, hL⟩ := ha.section pre s t (v :: post) hS i hi
  obtain ⟨⟨ib, ob, f1, _, hR'⟩, hL'⟩ := ha.section (pre ++ [s]) t v post (by rw [hS]; simp) i hi
  rw [hsym] at hR hL hR' hL'
  have hoff : ((pre ++ [s]).map (·.numSpanwisePanels)).sum
      = (pre.map (·.numSpanwisePanels)).sum + s.numSpanwisePanels := by simp
  rw [hoff] at hR' hL'
  rcases hj with hj | ⟨hsy, hj⟩
  · have h1 := hR (s.numSpanwisePanels - 1) (by omega)
    have h2 := hR' 0 ht0
    rw [show (if sym then halfSpan sections else 0) + ((pre.map (·.numSpanwisePanels)).sum
        + (s.numSpanwisePanels - 1)) = j by omega, hp] at h1
    rw [add_zero, ← hj, hq] at h2
    cases h1
    cases h2
    rw [hd, hh, f1] at e2
    cases e2
    have n1 : s.numSpanwisePanels - 1 + 1 = s.numSpanwisePanels := by omega
    refine ⟨?_, ?_⟩
    · show sectionVertex _ _ _ _ _ i (s.numSpanwisePanels - 1 + 1) = sectionVertex _ _ _ _ _ i 0
      rw [n1]
      refine (sectionVertex_outer w.spec { s with wingUnitChordwise := w.spec.unitChordwise } _ _ _ i hs0).trans ?_
      exact (sectionVertex_inner w.spec { t with wingUnitChordwise := w.spec.unitChordwise } _ _ _ i ht0).symm
    · show sectionVertex _ _ _ _ _ (i + 1) (s.numSpanwisePanels - 1 + 1) = sectionVertex _ _ _ _ _ (i + 1) 0
      rw [n1]
      refine (sectionVertex_outer w.spec { s with wingUnitChordwise := w.spec.unitChordwise } _ _ _ _ hs0).trans ?_
      exact (sectionVertex_inner w.spec { t with wingUnitChordwise := w.spec.unitChordwise } _ _ _ _ ht0).symm
  · obtain ⟨ja, ka, _, e3, hL⟩ := hL hsy
    obtain ⟨jb, kb, f3, _, hL'⟩ := hL' hsy
    obtain ⟨_, h1⟩ := hL (s.numSpanwisePanels - 1) (by omega)
    obtain ⟨_, h2⟩ := hL' 0 ht0
    rw [show halfSpan sections - 1 - ((pre.map (·.numSpanwisePanels)).sum + (s.numSpanwisePanels - 1)) = j + 1 by
      omega, hq] at h1
    rw [show halfSpan sections - 1 - ((pre.map (·.numSpanwisePanels)).sum + s.numSpanwisePanels + 0) = j by
      omega, hp] at h2
    cases h1
    cases h2
    rw [show mirroredDeflection s = mirroredDeflection t by unfold mirroredDeflection; rw [hty, hd], hh, f3] at e3
    cases e3
    have n1 : s.numSpanwisePanels - 1 + 1 = s.numSpanwisePanels := by omega
    refine ⟨?_, ?_⟩
    · show reflectPointAcrossPlane (sectionVertex _ _ _ _ _ i 0) _ _
        = reflectPointAcrossPlane (sectionVertex _ _ _ _ _ i (s.numSpanwisePanels - 1 + 1)) _ _
      rw [n1]
      congr 1
      refine (sectionVertex_inner w.spec { t with wingUnitChordwise := w.spec.unitChordwise } _ _ _ i ht0).trans ?_
      exact (sectionVertex_outer w.spec { s with wingUnitChordwise := w.spec.unitChordwise } _ _ _ i hs0).symm
    · show reflectPointAcrossPlane (sectionVertex _ _ _ _ _ (i + 1) 0) _ _
        = reflectPointAcrossPlane (sectionVertex _ _ _ _ _ (i + 1) (s.numSpanwisePanels - 1 + 1)) _ _
      rw [n1]
      congr 1
      refine (sectionVertex_inner w.spec { t with wingUnitChordwise := w.spec.unitChordwise } _ _ _ _ ht0).trans ?_
      exact (sectionVertex_outer w.spec { s with wingUnitChordwise := w.spec.unitChordwise } _ _ _ _ hs0).symm

/-- C20: across the symmetry plane, the two innermost panels of a row share their edge if the root's control surface
is symmetric or not deflected. -/
theorem C20_symmetry_plane (root t : WingCrossSection) (rest : List WingCrossSection) (le n : V3) (u : V3)
    (m : ℕ) (sp : String) (w : Wing) (h : Wing.create (root :: t :: rest) le n true u m sp = .ok w)
    (h0 : 0 < root.numSpanwisePanels)
    (hcs : root.controlSurfaceType = "symmetric" ∨ root.deflection = 0) (i j : ℕ)
    (hj : j + 1 = halfSpan (root :: t :: rest))
    (p q : Panel) (hp : cell w.panels i j = some p) (hq : cell w.panels i (j + 1) = some q) :
    p.frontRight = q.frontLeft ∧ p.backRight = q.backLeft := by
  obtain ⟨hs, ha⟩ := Wing.create_ok _ le n true u m sp w h
  have hi := (cell_some_row ha hp).1
  have hsym : w.spec.symmetric = true := by rw [hs]
  obtain ⟨⟨ia, oa, e1, _, hR⟩, hL⟩ := ha.section [] root t rest rfl i hi
  obtain ⟨ja, ka, f1, _, hL⟩ := hL hsym
  have hmd : mirroredDeflection root = root.deflection := by
    unfold mirroredDeflection
    rcases hcs with e | e <;> simp [e]
  rw [hmd, e1] at f1
  cases f1
  have h1 := hR 0 h0
  obtain ⟨_, h2⟩ := hL 0 h0
  simp only [hsym, if_true, List.map_nil, List.sum_nil, add_zero] at h1
  simp only [List.map_nil, List.sum_nil, add_zero] at h2
  rw [← hj, hq] at h1
  rw [← hj, Nat.sub_zero, Nat.add_sub_cancel, hp] at h2
  cases h1
  cases h2
  have hroot : w.sections.head? = some { root with wingUnitChordwise := w.spec.unitChordwise } := by
    rw [ha.stored]; rfl
  have hv := fun i => sectionVertex_inner w.spec { root with wingUnitChordwise := w.spec.unitChordwise }
    { t with wingUnitChordwise := w.spec.unitChordwise } ia oa i h0
  have hv' := fun i => sectionVertex_inner w.spec { root with wingUnitChordwise := w.spec.unitChordwise }
    { t with wingUnitChordwise := w.spec.unitChordwise } ia ka i h0
  refine ⟨?_, ?_⟩
  · show reflectPointAcrossPlane (sectionVertex _ _ _ _ _ i 0) _ _ = sectionVertex _ _ _ _ _ i 0
    rw [hv, hv']
    exact root_on_plane ha _ hroot ia i (by omega)
  · show reflectPointAcrossPlane (sectionVertex _ _ _ _ _ (i + 1) 0) _ _ = sectionVertex _ _ _ _ _ (i + 1) 0
    rw [hv, hv']
    exact root_on_plane ha _ hroot ia (i + 1) (by omega)

theorem section_of_column : ∀ (S : List WingCrossSection) (J : ℕ), J < halfSpan S →
    ∃ pre s t post, S = pre ++ s :: t :: post ∧ (pre.map (·.numSpanwisePanels)).sum ≤ J ∧
      J < (pre.map (·.numSpanwisePanels)).sum + s.numSpanwisePanels := by
  intro S
  induction S with
  | nil => intro J h; simp [halfSpan] at h
  | cons a S ih =>
    intro J h
    cases S with
    | nil => simp [halfSpan] at h
    | cons b S =>
      by_cases hJ : J < a.numSpanwisePanels
      · exact ⟨[], a, b, S, rfl, by simp, by simpa using hJ⟩
      · have h' : J < a.numSpanwisePanels + halfSpan (b :: S) := by
          simpa [halfSpan] using h
        obtain ⟨pre, s, t, post, e, h1, h2⟩ := ih (J - a.numSpanwisePanels) (by omega)
        refine ⟨a :: pre, s, t, post, by rw [e]; rfl, ?_, ?_⟩ <;> rw [List.map_cons, List.sum_cons] <;> omega

theorem halfSpan_append (pre : List WingCrossSection) (s t : WingCrossSection) :
    halfSpan (pre ++ [s, t]) = (pre.map (·.numSpanwisePanels)).sum + s.numSpanwisePanels := by
  unfold halfSpan
  rw [show pre ++ [s, t] = (pre ++ [s]) ++ [t] by simp, List.dropLast_concat]
  simp

/-- C20: if all sections have at least one spanwise panel and the same control surface, with the same deflection and
hinge, and on a symmetric wing this surface is symmetric or not deflected, then all panels next to each other in a row
share their common side: the wing has no gaps. -/
theorem C20_everywhere (sections : List WingCrossSection) (le n : V3) (sym : Bool) (u : V3) (m : ℕ)
    (sp : String) (w : Wing) (h : Wing.create sections le n sym u m sp = .ok w) (d hinge : ℝ) (type : String)
    (hall : ∀ s ∈ sections.dropLast, 0 < s.numSpanwisePanels ∧ s.deflection = d ∧ s.hinge = hinge ∧
      s.controlSurfaceType = type) (hsym : sym = true → type = "symmetric" ∨ d = 0) (i j : ℕ)
    (p q : Panel) (hp : cell w.panels i j = some p) (hq : cell w.panels i (j + 1) = some q) :
    p.frontRight = q.frontLeft ∧ p.backRight = q.backLeft := by
  obtain ⟨hs, ha⟩ := Wing.create_ok sections le n sym u m sp w h
  have hj : j + 1 < w.numSpanwisePanels := by
    obtain ⟨hi, hr⟩ := cell_some_row ha hq
    have hlt := (List.getElem?_eq_some_iff.mp hr).1
    have hip : i < w.panels.length := by
      rw [(C18_wing_counts sections le n sym u m sp w h).1, ← show w.spec.numChordwisePanels = m by rw [hs]]
      exact hi
    rw [List.getD_eq_getElem?_getD, List.getElem?_eq_getElem hip, Option.getD_some,
      (C18_wing_counts sections le n sym u m sp w h).2.1 _ (List.getElem_mem hip)] at hlt
    exact hlt
  have hN : w.numSpanwisePanels = if sym then halfSpan sections * 2 else halfSpan sections := by
    rw [ha.nspan, hs]; rfl
  have hmem : ∀ pre s t post, sections = pre ++ s :: t :: post → s ∈ sections.dropLast := by
    intro pre s t post e
    rw [e, List.dropLast_append_of_ne_nil (by simp)]
    simp
  have right : ∀ J, J + 1 < halfSpan sections → j = (if sym then halfSpan sections else 0) + J ∨
      sym = true ∧ j + 1 + (J + 1) = halfSpan sections → p.frontRight = q.frontLeft ∧ p.backRight = q.backLeft := by
    intro J hJ hjJ
    obtain ⟨pre, s, t, post, e, h1, h2⟩ := section_of_column sections J (by omega)
    by_cases hin : J + 1 < (pre.map (·.numSpanwisePanels)).sum + s.numSpanwisePanels
    · refine C20_within_section sections le n sym u m sp w h pre s t post e (J - (pre.map (·.numSpanwisePanels)).sum)
        (by omega) i j ?_ p q hp hq
      rcases hjJ with hjJ | ⟨hy, hjJ⟩
      · left; omega
      · right; exact ⟨hy, by omega⟩
    · cases post with
      | nil =>
        rw [e, halfSpan_append] at hJ
        omega
      | cons v post =>
        obtain ⟨a1, a2, a3, a4⟩ := hall s (hmem pre s t _ e)
        obtain ⟨b1, b2, b3, b4⟩ := hall t (hmem (pre ++ [s]) t v post (by rw [e]; simp))
        refine C20_across_border sections le n sym u m sp w h pre s t v post e a1 b1 (by rw [a2, b2]) (by rw [a3, b3])
          (by rw [a4, b4]) i j ?_ p q hp hq
        rcases hjJ with hjJ | ⟨hy, hjJ⟩
        · left; omega
        · right; exact ⟨hy, by omega⟩
  cases sym with
  | false =>
    simp only [Bool.false_eq_true, if_false] at hN right
    exact right j (by omega) (Or.inl (by omega))
  | true =>
    simp only [if_true, true_and] at hN right
    rcases Nat.lt_trichotomy (j + 1) (halfSpan sections) with hlt | heq | hgt
    · exact right (halfSpan sections - (j + 2)) (by omega) (Or.inr (by omega))
    · match sections, h, ha, hall, heq, hmem with
      | [], h, _, _, _, _ => simp [Wing.create] at h
      | [_], h, _, _, _, _ => simp [Wing.create] at h
      | root :: t :: rest, h, ha, hall, heq, hmem =>
        obtain ⟨c1, c2, c3, c4⟩ := hall root (hmem [] root t rest rfl)
        exact C20_symmetry_plane root t rest le n u m sp w h c1 (by rw [c2, c4]; exact hsym rfl) i j heq p q hp hq
    · exact right (j - halfSpan sections) (by omega) (Or.inl (by omega))

/-! ## The cases left out really have gaps -/

theorem npInterp_one_bent (P : ℝ × ℝ) (hP : P ≠ 0) :
    (bentPlate P).downsampledMcl (linspace 0 1 2) = [(0, 0), P] := by
  have hpos : 0 < Real.sqrt (P.1 ^ 2 + P.2 ^ 2) := by
    apply Real.sqrt_pos.mpr
    by_contra hle
    push Not at hle
    apply hP
    ext
    · show P.1 = 0; nlinarith [sq_nonneg P.1, sq_nonneg P.2]
    · show P.2 = 0; nlinarith [sq_nonneg P.1, sq_nonneg P.2]
  have hs : mclFractions (bentPlate P).mcl = [0, 1] := by
    simp [mclFractions, bentPlate, cumsum, hpos.ne']
  unfold Airfoil.downsampledMcl
  rw [hs]
  have hl : linspace 0 1 2 = [0, 1] := by
    simp [linspace, List.range_succ]
    norm_num
  rw [hl]
  have h10 : ¬ (1 : ℝ) ≤ 0 := by norm_num
  simp [bentPlate, npInterp, h10]

/-- The defect: with control surfaces deflected differently on the two sides of a section border, the mesh has a gap
there. Here the inner section's flap is down by 90 degrees, the outer one's is not deflected: the two panels of the
only row do not share their common edge. -/
theorem C20_gap_at_border : ∃ w, Wing.create
    [plateSection 0 1 0 90 "symmetric" 1 "uniform", plateSection ⟨0, 1, 0⟩ 1 0 0 "symmetric" 1 "uniform",
      plateSection ⟨0, 2, 0⟩ 1 0 0 "symmetric" 1 "uniform"] 0 ⟨0, 1, 0⟩ false ⟨1, 0, 0⟩ 1 "uniform" = .ok w ∧
    ∃ p q, cell w.panels 0 0 = some p ∧ cell w.panels 0 1 = some q ∧ p.backRight ≠ q.backLeft := by
  obtain ⟨w, hw⟩ := plateWing_accepted
    [plateSection 0 1 0 90 "symmetric" 1 "uniform", plateSection ⟨0, 1, 0⟩ 1 0 0 "symmetric" 1 "uniform",
      plateSection ⟨0, 2, 0⟩ 1 0 0 "symmetric" 1 "uniform"] false 1 one_pos "uniform" (by simp) (by simp)
    (by intro r hr; simp at hr; rw [← hr]; rfl)
    (by
      intro s hs
      simp only [List.mem_cons, List.not_mem_nil, or_false] at hs
      rcases hs with rfl | rfl | rfl <;> exact ⟨_, _, _, _, _, _, _, rfl, by norm_num⟩) 0
  refine ⟨w, hw, ?_⟩
  obtain ⟨hs, ha⟩ := Wing.create_ok _ _ _ _ _ _ _ w hw
  have hi : 0 < w.spec.numChordwisePanels := by rw [hs]; norm_num
  obtain ⟨⟨ia, oa, e1, e2, hR⟩, _⟩ := ha.section [] _ _ _ rfl 0 hi
  obtain ⟨⟨ib, ob, f1, f2, hR'⟩, _⟩ := ha.section [_] _ _ [] rfl 0 hi
  have hsym : w.spec.symmetric = false := by rw [hs]
  have h1 := hR 0 (by simp [plateSection])
  have h2 := hR' 0 (by simp [plateSection])
  simp only [hsym, Bool.false_eq_true, if_false, List.map_nil, List.sum_nil, add_zero] at h1
  simp only [hsym, Bool.false_eq_true, if_false, List.map_cons, List.map_nil, List.sum_cons, List.sum_nil,
    zero_add, add_zero, plateSection] at h2
  refine ⟨_, _, h1, h2, ?_⟩
  have g0 : (0 : ℝ) < 1 / 2 := by norm_num
  have g1 : (1 / 2 : ℝ) < 1 := by norm_num
  have e2' : flatPlate.addControlSurface 90 (1 / 2) = .ok oa := e2
  have f1' : flatPlate.addControlSurface 0 (1 / 2) = .ok ib := f1
  rw [flatPlate_flap 90 _ (by norm_num) g0 g1] at e2'
  rw [flatPlate_flap 0 _ (by norm_num) g0 g1] at f1'
  simp only [Except.ok.injEq] at e2' f1'
  have t1 : flapTip 90 (1 / 2) = (1 / 2, -(1 / 2)) := by
    have : radians (-90) = -(Real.pi / 2) := by unfold radians; ring
    simp [flapTip, this]; norm_num
  have t2 : flapTip 0 (1 / 2) = (1, 0) := by
    simp [flapTip, radians]
  rw [t1] at e2'
  rw [t2] at f1'
  subst e2' f1'
  show sectionVertex _ _ _ _ _ 1 (0 + 1) ≠ sectionVertex _ _ _ _ _ 1 0
  have v1 := fun (t : WingCrossSection) (a b : Airfoil) => sectionVertex_outer w.spec
    { plateSection 0 1 0 90 "symmetric" 1 "uniform" with wingUnitChordwise := w.spec.unitChordwise } t a b 1
    (by simp [plateSection])
  have v2 := fun (t : WingCrossSection) (a b : Airfoil) => sectionVertex_inner w.spec
    { plateSection ⟨0, 1, 0⟩ 1 0 0 "symmetric" 1 "uniform" with wingUnitChordwise := w.spec.unitChordwise } t a b 1
    (by simp [plateSection])
  intro heq
  have e3 := (v1 _ _ _).symm.trans (heq.trans (v2 _ _ _))
  have hcc : w.spec.chordwiseCoordinates = linspace 0 1 2 := by rw [hs]; simp [WingSpec.chordwiseCoordinates]
  unfold sectionPoint mclVectors at e3
  rw [hcc, npInterp_one_bent (1 / 2, -(1 / 2)) (by simp [Prod.ext_iff]),
    npInterp_one_bent (1, 0) (by simp [Prod.ext_iff])] at e3
  rw [hs] at e3
  have e4 := congrArg V3.x e3
  simp [sectionMcl, plateSection, WingCrossSection.unitChordwise, WingCrossSection.unitUp, V3.cross,
    angleAxisRotationMatrix, rodrigues, M3.mulVec, V3.dot] at e4

/-! ## C21 with asymmetric control surfaces -/

/-- What the control surface of a section looks like on the other side: an asymmetric one is deflected the other
way. -/
noncomputable def oppositeSurface (s : WingCrossSection) : WingCrossSection :=
  { s with deflection := if s.controlSurfaceType = "symmetric" then s.deflection else -s.deflection }

theorem isBlock_opposite (w : WingSpec) (S : List WingCrossSection) :
    ∀ As Bs, Forall₂ (IsBlock w mirroredDeflection) (List.zip S S.tail) As →
      Forall₂ (IsBlock w (·.deflection)) (List.zip (S.map oppositeSurface) (S.map oppositeSurface).tail) Bs →
      As = Bs := by
  induction S with
  | nil => intro As Bs h1 h2; cases h1; cases h2; rfl
  | cons a S ih =>
    cases S with
    | nil => intro As Bs h1 h2; cases h1; cases h2; rfl
    | cons b S =>
      intro As Bs h1 h2
      simp only [List.map_cons, List.tail_cons, List.zip_cons_cons] at h1 h2 ih
      cases h1 with
      | cons a1 r1 =>
        cases h2 with
        | cons a2 r2 =>
          obtain ⟨ia, oa, e1, e2, rfl⟩ := a1
          obtain ⟨ja, ka, f1, f2, rfl⟩ := a2
          have f1' : a.airfoil.addControlSurface (mirroredDeflection a) a.hinge = .ok ja := f1
          have f2' : b.airfoil.addControlSurface (mirroredDeflection a) a.hinge = .ok ka := f2
          simp only at e1 e2
          rw [e1] at f1'
          rw [e2] at f2'
          cases f1'
          cases f2'
          rw [ih _ _ r1 r2]
          rfl

/-- C21 in general: the left half of a symmetric wing is the mirror image of the right half of the wing whose
asymmetric control surfaces are deflected the other way. -/
theorem C21_mirror_opposite (sections : List WingCrossSection) (le n : V3) (u : V3) (m : ℕ)
    (sp : String) (w w' : Wing) (h : Wing.create sections le n true u m sp = .ok w)
    (h' : Wing.create (sections.map oppositeSurface) le n true u m sp = .ok w')
    (i j : ℕ) (hj : halfSpan sections ≤ j) (p q : Panel) (hp : cell w'.panels i j = some p)
    (hq : cell w.panels i (w.numSpanwisePanels - 1 - j) = some q) :
    q.frontLeft = reflectPointAcrossPlane p.frontRight n le ∧
    q.frontRight = reflectPointAcrossPlane p.frontLeft n le ∧
    q.backLeft = reflectPointAcrossPlane p.backRight n le ∧
    q.backRight = reflectPointAcrossPlane p.backLeft n le := by
  obtain ⟨hs, ha⟩ := Wing.create_ok _ le n true u m sp w h
  obtain ⟨hs', ha'⟩ := Wing.create_ok _ le n true u m sp w' h'
  obtain ⟨hi, hq⟩ := cell_some_row ha hq
  obtain ⟨hi', hp⟩ := cell_some_row ha' hp
  have hhalf' := ha'.half
  have hhalf := ha.half
  have heq : halfSpan (sections.map oppositeSurface) = halfSpan sections := by
    unfold halfSpan; rw [← List.map_dropLast, List.map_map]; rfl
  obtain ⟨hm, Rs, Ls, hR, hL, hlen, hrows⟩ := ha.grid
  obtain ⟨_, Rs', Ls', hR', hL', hlen', hrows'⟩ := ha'.grid
  have hsym : w.spec.symmetric = true := by rw [hs]
  have hsym' : w'.spec.symmetric = true := by rw [hs']
  have hspec : w'.spec = w.spec := by rw [hs, hs']
  rw [if_pos hsym] at hL
  rw [if_pos hsym'] at hL'
  have hLR : Ls = Rs' := by
    apply isBlock_opposite w.spec w.sections _ _ hL
    rw [hspec, ha'.stored, hspec] at hR'
    have : withChordwise w.spec.unitChordwise (sections.map oppositeSurface)
        = w.sections.map oppositeSurface := by
      rw [ha.stored]; unfold withChordwise; rw [List.map_map, List.map_map]; rfl
    rw [this] at hR'
    exact hR'
  have lL := blockRow_length _ _ _ i hi Ls hL
  have lL' := blockRow_length _ _ _ i hi' Ls' hL'
  rw [hhalf] at lL
  rw [hhalf', heq] at lL'
  have hN : w.numSpanwisePanels = halfSpan sections * 2 := by rw [ha.nspan, if_pos hsym]; rfl
  rw [hrows' i hi', List.getElem?_mapIdx, List.getElem?_append_right (by simp; omega)] at hp
  obtain ⟨p', hp', rfl⟩ := Option.map_eq_some_iff.mp hp
  simp only [List.length_reverse, List.length_map, lL'] at hp'
  have hjl := (List.getElem?_eq_some_iff.mp hp').1
  rw [← hLR, lL] at hjl
  rw [hrows i hi, List.getElem?_mapIdx, List.getElem?_append_left (by simp; omega)] at hq
  obtain ⟨q', hq', rfl⟩ := Option.map_eq_some_iff.mp hq
  rw [List.getElem?_reverse (by simp; omega)] at hq'
  simp only [List.length_map, List.getElem?_map, lL] at hq'
  rw [show halfSpan sections - 1 - (w.numSpanwisePanels - 1 - j) = j - halfSpan sections by omega, hLR, hp'] at hq'
  simp only [Option.map_some, Option.some.injEq] at hq'
  subst hq'
  simp [Panel.mirror, Panel.place, hs]

/-! ## Concrete wings -/

/-- Three plate sections, two wing sections of 3 and 2 panels with equal symmetric flaps. -/
noncomputable def exampleSections : List WingCrossSection :=
  [plateSection 0 2 3 20 "symmetric" 3 "cosine", plateSection ⟨1, 3, 0⟩ 1.5 0 20 "symmetric" 2 "uniform",
    plateSection ⟨2, 5, 1⟩ 1 (-2) 0 "symmetric" 8 "cosine"]

theorem exampleSections_accepted (sym : Bool) :
    ∃ w, Wing.create exampleSections ⟨5, 0, 1⟩ ⟨0, 1, 0⟩ sym ⟨1, 0, 0⟩ 4 "cosine" = .ok w := by
  apply plateWing_accepted _ _ _ (by norm_num) _ (by simp) (by simp [exampleSections])
    (hn := by simp [exampleSections, plateSection])
  · intro r hr; simp [exampleSections] at hr; rw [← hr]; rfl
  · intro s hs
    simp only [exampleSections, List.mem_cons, List.not_mem_nil, or_false] at hs
    rcases hs with rfl | rfl | rfl <;> exact ⟨_, _, _, _, _, _, _, rfl, by norm_num [abs_le]⟩

/-- Non-vacuity of C18-C21: a symmetric wing of 4 x 10 panels meeting every hypothesis (equal symmetric control
surfaces, unit normal), with panels in neighbouring cells on both sides of the symmetry plane. -/
example : ∃ w, Wing.create exampleSections ⟨5, 0, 1⟩ ⟨0, 1, 0⟩ true ⟨1, 0, 0⟩ 4 "cosine" = .ok w ∧
    w.numSpanwisePanels = 10 ∧ w.numPanels = 40 ∧
    (∀ s ∈ exampleSections.dropLast, s.deflection = 20 ∧ s.hinge = 1 / 2 ∧ s.controlSurfaceType = "symmetric" ∧
      0 < s.numSpanwisePanels) ∧ (⟨0, 1, 0⟩ : V3).norm = 1 ∧
    (∃ p q, cell w.panels 2 4 = some p ∧ cell w.panels 2 5 = some q) := by
  obtain ⟨w, hw⟩ := exampleSections_accepted true
  obtain ⟨c1, c2, c3, c4, c5⟩ := C18_wing_counts _ _ _ _ _ _ _ w hw
  have hn : w.numSpanwisePanels = 10 := by rw [c3]; simp [exampleSections, plateSection]
  refine ⟨w, hw, hn, by rw [c5, hn], ?_, by simp [V3.norm, V3.dot], ?_⟩
  · intro s hs
    simp only [exampleSections, List.dropLast_cons_cons, List.dropLast_singleton, List.mem_cons,
      List.not_mem_nil, or_false] at hs
    rcases hs with rfl | rfl <;> simp [plateSection]
  · have h2 : 2 < w.panels.length := by omega
    have hr := c2 _ (List.getElem_mem h2)
    have h4 : 4 < w.panels[2].length := by omega
    have h5 : 5 < w.panels[2].length := by omega
    exact ⟨w.panels[2][4], w.panels[2][5], by simp [cell, h2, h4], by simp [cell, h2, h5]⟩

end Ptera
