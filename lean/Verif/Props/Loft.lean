import Verif.Props.CamberLine
import Verif.Lemmas.MeshCells
import Verif.Props.ControlSurface

/-!
# C62: the mesh is the loft between the cross sections

Specification in `Verif/Spec/Loft.lean`.
-/

namespace Ptera

open List

/-! ## Helpers -/

theorem linspace_spaced (n j : ℕ) (hj : j ≤ n) : (linspace 0 1 (n + 1)).getD j 0 = (j : ℝ) / n := by
  have h := linspace_getElem? 0 1 (n + 1) true j (by omega)
  rw [List.getD_eq_getElem?_getD, h]
  simp
  ring

theorem cosspace_spaced (n j : ℕ) (hn : 0 < n) (hj : j ≤ n) :
    (cosspace 0 1 (n + 1)).getD j 0 = (1 - Real.cos (Real.pi * (j / n))) / 2 := by
  have h := linspace_getElem? Real.pi 0 (n + 1) true j (by omega)
  have hn' : (n : ℝ) ≠ 0 := by exact_mod_cast hn.ne'
  rw [List.getD_eq_getElem?_getD]
  simp only [cosspace, List.getElem?_map, h, Option.map_some, Option.getD_some]
  have e : Real.pi + (j : ℝ) * ((0 - Real.pi) / (((n + 1 : ℕ) : ℝ) - 1)) = Real.pi - Real.pi * (j / n) := by
    simp
    field_simp
    ring
  rw [if_pos trivial, e, Real.cos_pi_sub]
  ring

theorem chordwise_spaced (w : WingSpec) (j : ℕ) (hn : 0 < w.numChordwisePanels) (hj : j ≤ w.numChordwisePanels) :
    w.chordwiseCoordinates.getD j 0 = spaced w.chordwiseSpacing w.numChordwisePanels j := by
  unfold WingSpec.chordwiseCoordinates spaced
  split
  · exact linspace_spaced _ _ hj
  · exact cosspace_spaced _ _ hn hj

theorem spanwise_spaced (s : WingCrossSection) (j : ℕ) (hn : 0 < s.numSpanwisePanels) (hj : j ≤ s.numSpanwisePanels) :
    s.spanwiseCoordinates.getD j 0 = spaced s.spanwiseSpacing s.numSpanwisePanels j := by
  unfold WingCrossSection.spanwiseCoordinates spaced
  split
  · exact linspace_spaced _ _ hj
  · exact cosspace_spaced _ _ hn hj

theorem spaced_mem (sp : String) (n j : ℕ) (hn : 0 < n) (hj : j ≤ n) : 0 ≤ spaced sp n j ∧ spaced sp n j ≤ 1 := by
  have hn' : (0 : ℝ) < n := by exact_mod_cast hn
  have hj' : (j : ℝ) ≤ n := by exact_mod_cast hj
  unfold spaced
  split
  · exact ⟨by positivity, by rw [div_le_one hn']; exact hj'⟩
  · have h1 := Real.neg_one_le_cos (Real.pi * (j / n))
    have h2 := Real.cos_le_one (Real.pi * (j / n))
    constructor <;> linarith

/-- The point of a section's camber line the mesher uses in row `i`. -/
theorem sectionPoint_on (w : WingSpec) (s : WingCrossSection) (a : Airfoil) (ha : a.Regular) (i : ℕ)
    (hm : 0 < w.numChordwisePanels) (hi : i ≤ w.numChordwisePanels) :
    ∃ p, OnLineAt a.mcl (spaced w.chordwiseSpacing w.numChordwisePanels i * arcLength a.mcl) p ∧
      sectionPoint w { s with wingUnitChordwise := w.unitChordwise } a i
        = sectionPosition w.leadingEdge w.unitChordwise s p := by
  have hlen := chordwiseCoordinates_length w
  have hall : ∀ f ∈ w.chordwiseCoordinates, 0 ≤ f ∧ f ≤ 1 := by
    intro f hf
    obtain ⟨j, hj, rfl⟩ := List.mem_iff_getElem.mp hf
    have := chordwise_spaced w j hm (by omega)
    rw [List.getD_eq_getElem?_getD, List.getElem?_eq_getElem hj, Option.getD_some] at this
    rw [this]
    exact spaced_mem _ _ _ hm (by omega)
  have h := C61_points a ha.1 ha.2 _ hall
  have hi' : i < w.chordwiseCoordinates.length := by omega
  have hi2 : i < (a.downsampledMcl w.chordwiseCoordinates).length := by rw [← h.length_eq]; exact hi'
  have hp := h.get hi' hi2
  simp only [List.get_eq_getElem] at hp
  have hs := chordwise_spaced w i hm hi
  rw [List.getD_eq_getElem?_getD, List.getElem?_eq_getElem hi', Option.getD_some] at hs
  rw [hs] at hp
  refine ⟨_, hp, ?_⟩
  unfold sectionPoint sectionMcl mclVectors
  rw [List.getD_eq_getElem?_getD, List.getElem?_map, List.getElem?_eq_getElem hi2]
  simp only [Option.map_some, Option.getD_some]
  unfold sectionPosition WingCrossSection.unitUp WingCrossSection.unitChordwise
  generalize (angleAxisRotationMatrix (s.twist * Real.pi / 180) s.unitNormal).mulVec w.unitChordwise = b
  ext <;> simp <;> ring

theorem sectionVertex_loft (w : WingSpec) (s t : WingCrossSection) (ia oa : Airfoil) (hia : ia.Regular)
    (hoa : oa.Regular) (hm : 0 < w.numChordwisePanels) (i j : ℕ) (hi : i ≤ w.numChordwisePanels)
    (hn : 0 < s.numSpanwisePanels) (hj : j ≤ s.numSpanwisePanels) :
    LoftPoint w.leadingEdge w.unitChordwise s t ia.mcl oa.mcl (spaced w.chordwiseSpacing w.numChordwisePanels i)
      (spaced s.spanwiseSpacing s.numSpanwisePanels j)
      (sectionVertex w { s with wingUnitChordwise := w.unitChordwise } { t with wingUnitChordwise := w.unitChordwise }
        ia oa i j) := by
  obtain ⟨p, hp, ep⟩ := sectionPoint_on w s ia hia i hm hi
  obtain ⟨q, hq, eq⟩ := sectionPoint_on w t oa hoa i hm hi
  refine ⟨p, q, hp, hq, ?_⟩
  unfold sectionVertex
  have hs := spanwise_spaced s j hn hj
  have hs' : ({ s with wingUnitChordwise := w.unitChordwise } : WingCrossSection).spanwiseCoordinates.getD j 0
      = spaced s.spanwiseSpacing s.numSpanwisePanels j := hs
  unfold sectionPoint at ep eq
  simp only [hs', ep, eq]
  ext <;> simp <;> ring

/-! ## C62 -/

/-- C62: the panels between two neighbouring cross sections `s` and `t` of an accepted wing. Their airfoils are deflected
by the deflection of `s` at its hinge. The vertices of the panel in row `i` and in column `k` of the section are the
points of the loft at the chordwise spacing's points `i` and `i + 1` and the spanwise spacing's points `k` and `k + 1`.
On the left half of a symmetric wing the vertices are the mirror images of such points, the deflection being opposite
unless the control surface is a symmetric one; columns count from the symmetry plane. -/
theorem C62_loft (sections : List WingCrossSection) (le n : V3) (sym : Bool) (u : V3) (m : ℕ) (sp : String) (w : Wing)
    (h : Wing.create sections le n sym u m sp = .ok w) (before : List WingCrossSection) (s t : WingCrossSection)
    (after : List WingCrossSection) (hS : sections = before ++ s :: t :: after) (i k : ℕ) (hi : i < m)
    (hk : k < s.numSpanwisePanels) :
    let half := (sections.dropLast.map (·.numSpanwisePanels)).sum
    let column := (before.map (·.numSpanwisePanels)).sum + k
    let f := spaced sp m
    let r := spaced s.spanwiseSpacing s.numSpanwisePanels
    (∃ a b, s.airfoil.addControlSurface s.deflection s.hinge = .ok a ∧
      t.airfoil.addControlSurface s.deflection s.hinge = .ok b ∧
      (a.Regular → b.Regular → ∃ p, cell w.panels i ((if sym then half else 0) + column) = some p ∧
        LoftPoint le u s t a.mcl b.mcl (f i) (r k) p.frontLeft ∧
        LoftPoint le u s t a.mcl b.mcl (f i) (r (k + 1)) p.frontRight ∧
        LoftPoint le u s t a.mcl b.mcl (f (i + 1)) (r k) p.backLeft ∧
        LoftPoint le u s t a.mcl b.mcl (f (i + 1)) (r (k + 1)) p.backRight)) ∧
    (sym = true → ∃ d a b, d = (if s.controlSurfaceType = "symmetric" then s.deflection else -s.deflection) ∧
      s.airfoil.addControlSurface d s.hinge = .ok a ∧ t.airfoil.addControlSurface d s.hinge = .ok b ∧
      (a.Regular → b.Regular → ∃ p fl fr bl br, column < half ∧ cell w.panels i (half - 1 - column) = some p ∧
        p.frontRight = reflectPointAcrossPlane fr n le ∧ LoftPoint le u s t a.mcl b.mcl (f i) (r k) fr ∧
        p.frontLeft = reflectPointAcrossPlane fl n le ∧ LoftPoint le u s t a.mcl b.mcl (f i) (r (k + 1)) fl ∧
        p.backRight = reflectPointAcrossPlane br n le ∧ LoftPoint le u s t a.mcl b.mcl (f (i + 1)) (r k) br ∧
        p.backLeft = reflectPointAcrossPlane bl n le ∧
        LoftPoint le u s t a.mcl b.mcl (f (i + 1)) (r (k + 1)) bl)) := by
  intro half column f r
  obtain ⟨hs, ha⟩ := Wing.create_ok sections le n sym u m sp w h
  have hm : 0 < w.spec.numChordwisePanels := ha.grid.1
  have hi' : i < w.spec.numChordwisePanels := by rw [hs]; exact hi
  obtain ⟨hR, hL⟩ := ha.section before s t after hS i hi'
  have key : ∀ (a b : Airfoil), a.Regular → b.Regular → ∀ i' k', i' ≤ m → k' ≤ s.numSpanwisePanels →
      LoftPoint le u s t a.mcl b.mcl (f i') (r k') (sectionVertex w.spec
        { s with wingUnitChordwise := w.spec.unitChordwise } { t with wingUnitChordwise := w.spec.unitChordwise }
        a b i' k') := by
    intro a b hra hrb i' k' h1 h2
    have := sectionVertex_loft w.spec s t a b hra hrb hm i' k' (by rw [hs]; exact h1) (by omega) h2
    rw [hs] at this ⊢
    exact this
  constructor
  · obtain ⟨a, b, h1, h2, h3⟩ := hR
    refine ⟨a, b, h1, h2, fun hra hrb => ?_⟩
    have h4 := h3 k hk
    rw [show w.spec.symmetric = sym by rw [hs]] at h4
    exact ⟨_, h4, key a b hra hrb i k hi.le hk.le, key a b hra hrb i (k + 1) hi.le hk,
      key a b hra hrb (i + 1) k hi hk.le, key a b hra hrb (i + 1) (k + 1) hi hk⟩
  · intro hsym
    obtain ⟨a, b, h1, h2, h3⟩ := hL (by rw [hs]; exact hsym)
    refine ⟨_, a, b, rfl, h1, h2, fun hra hrb => ?_⟩
    obtain ⟨h4, h5⟩ := h3 k hk
    rw [show w.spec.unitNormal = n by rw [hs], show w.spec.leadingEdge = le by rw [hs]] at h5
    exact ⟨_, _, _, _, _, h4, h5, rfl, key a b hra hrb i k hi.le hk.le, rfl, key a b hra hrb i (k + 1) hi.le hk, rfl,
      key a b hra hrb (i + 1) k hi hk.le, rfl, key a b hra hrb (i + 1) (k + 1) hi hk⟩

/-- C62: the loft points of the first row's front (`f = 0`, the first point of either spacing) are on the line through
the leading edges of the two sections if the camber lines start there; those of the last row's back (`f = 1`, the last
point of either spacing) on the line through their trailing edges if the camber lines end there. -/
theorem C62_edges (le u : V3) (s t : WingCrossSection) (a b : Airfoil) (ha : a.Regular) (hb : b.Regular) (r : ℝ) (x : V3) :
    (∀ (sp : String) (m : ℕ), 0 < m → spaced sp m 0 = 0 ∧ spaced sp m m = 1) ∧
    (a.mcl.head? = some (0, 0) → b.mcl.head? = some (0, 0) → LoftPoint le u s t a.mcl b.mcl 0 r x →
      x = le + ((1 - r) • s.leadingEdge + r • t.leadingEdge)) ∧
    (a.mcl.getLast? = some (1, 0) → b.mcl.getLast? = some (1, 0) → LoftPoint le u s t a.mcl b.mcl 1 r x →
      x = le + ((1 - r) • ({ s with wingUnitChordwise := u } : WingCrossSection).trailingEdge
        + r • ({ t with wingUnitChordwise := u } : WingCrossSection).trailingEdge)) := by
  have first : ∀ c : Airfoil, c.Regular → ∀ p q, OnLineAt c.mcl (0 * arcLength c.mcl) p → c.mcl.head? = some q → p = q := by
    intro c hc p q hp hq
    obtain ⟨h1, _⟩ := C61_ends c hc.1 hc.2
    have h := C61_points c hc.1 hc.2 [0] (by simp)
    rw [hq, Option.map_some, Option.some.injEq] at h1
    rw [h1, List.forall₂_cons] at h
    exact OnLineAt.unique hc.2 hp h.1
  have last : ∀ c : Airfoil, c.Regular → ∀ p q, OnLineAt c.mcl (1 * arcLength c.mcl) p → c.mcl.getLast? = some q →
      p = q := by
    intro c hc p q hp hq
    obtain ⟨_, h1⟩ := C61_ends c hc.1 hc.2
    have h := C61_points c hc.1 hc.2 [1] (by simp)
    rw [hq, Option.map_some, Option.some.injEq] at h1
    rw [h1, List.forall₂_cons] at h
    exact OnLineAt.unique hc.2 hp h.1
  refine ⟨?_, ?_, ?_⟩
  · intro sp m hm
    have hm' : (m : ℝ) ≠ 0 := by exact_mod_cast hm.ne'
    unfold spaced
    split
    · simp [hm']
    · simp [hm']
  · rintro h1 h2 ⟨p, q, hp, hq, rfl⟩
    rw [first a ha p _ hp h1, first b hb q _ hq h2]
    unfold sectionPosition
    ext <;> simp <;> ring
  · rintro h1 h2 ⟨p, q, hp, hq, rfl⟩
    rw [last a ha p _ hp h1, last b hb q _ hq h2]
    unfold sectionPosition WingCrossSection.trailingEdge WingCrossSection.unitChordwise
    ext <;> simp <;> ring

/-- Every repaneled airfoil (the default) is regular. -/
theorem regular_repaneled (pchip : List ℝ → List ℝ → Except Err (ℝ → ℝ)) (c : List (ℝ × ℝ)) (n : ℕ) (hn : 2 ≤ n)
    (a : Airfoil) (ha : Airfoil.create pchip c true n = .ok a) : a.Regular := by
  obtain ⟨hw, _, hl, hx, _⟩ := C24_repaneled pchip c n hn a ha
  have hg := C07_cosspace 0 1 n (by norm_num) hn
  have hlen : a.mcl.length = n := by
    have := congrArg List.length hx
    rw [List.length_map] at this
    rw [this, hg.length]
  refine ⟨by omega, ?_⟩
  rw [List.isChain_iff_getElem]
  intro j hj e
  have h1 : (cosspace 0 1 n)[j]? = some (a.mcl[j].1) := by
    rw [← hx, List.getElem?_map, List.getElem?_eq_getElem (by omega)]; rfl
  have h2 : (cosspace 0 1 n)[j + 1]? = some (a.mcl[j + 1].1) := by
    rw [← hx, List.getElem?_map, List.getElem?_eq_getElem hj]; rfl
  have := hg.increasing j (j + 1) _ _ (by omega) h1 h2
  rw [e] at this
  exact lt_irrefl _ this

/-- The airfoils of undeflected sections meet the hypotheses of `C62_loft`: for any repaneled airfoil and any hinge in
front of the trailing edge the deflected airfoil is the airfoil itself, and regular. -/
example (pchip : List ℝ → List ℝ → Except Err (ℝ → ℝ)) (c : List (ℝ × ℝ)) (a : Airfoil)
    (ha : Airfoil.create pchip c = .ok a) (h : ℝ) (hh : h < 1) :
    a.addControlSurface 0 h = .ok a ∧ a.Regular :=
  ⟨C25_zero_deflection_repaneled pchip c 400 (by norm_num) a ha h hh, regular_repaneled pchip c 400 (by norm_num) a ha⟩

end Ptera
