import Verif.Model.Geometry

/-! What the copies of a convergence study have in common with the reference, see C56. -/

namespace Ptera

/-- Everything a cross section was given except its airfoil object, its plane and its number of panels. -/
def WingCrossSection.SamePlanform (s s' : WingCrossSection) : Prop :=
  s'.leadingEdge = s.leadingEdge ∧ s'.chord = s.chord ∧ s'.twist = s.twist ∧
    s'.controlSurfaceType = s.controlSurfaceType ∧ s'.hinge = s.hinge ∧ s'.deflection = s.deflection ∧
    s'.spanwiseSpacing = s.spanwiseSpacing

/-- `n` is a nearest integer to the number of panels that gives a wing section of the length `length` and the mean chord
`mean` panels of the aspect ratio `ratio`: `length / n` over `mean / chordwise`. -/
def NearestCount (length mean chordwise ratio : ℝ) (n : ℕ) : Prop :=
  |(n : ℝ) - length / (mean / chordwise * ratio)| ≤ 1 / 2

/-- `w'` is the wing `w` with `chordwise` chordwise panels and panels whose aspect ratios are near `ratio`. -/
def Wing.Remeshed (w w' : Wing) (chordwise : ℕ) (ratio : ℤ) : Prop :=
  w'.spec.leadingEdge = w.spec.leadingEdge ∧ w'.spec.symmetric = w.spec.symmetric ∧
    w'.spec.chordwiseSpacing = w.spec.chordwiseSpacing ∧ w'.spec.numChordwisePanels = chordwise ∧
    w'.sections.length = w.sections.length ∧
    ∀ i s, w.sections[i]? = some s → ∃ s', w'.sections[i]? = some s' ∧ s.SamePlanform s' ∧
      ∀ t, w.sections[i + 1]? = some t → NearestCount (t.leadingEdge.y - s.leadingEdge.y) ((s.chord + t.chord) / 2)
        chordwise ratio s'.numSpanwisePanels

end Ptera
