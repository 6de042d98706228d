import Verif.Spec.Similar

/-! # Vocabulary for wings in the same place (C89) -/

namespace Ptera

/-- Wing `w` of airplane `a` and wing `w'` of airplane `a'` are two wings, but in the same place: all their attributes
and panels agree, and there are panels. The reference points of the airplanes may differ. -/
def WingTwice (as : List Airplane) : Prop :=
  ∃ (a w a' w' : ℕ) (A A' : Airplane) (W : Wing), (a, w) ≠ (a', w') ∧ as[a]? = some A ∧ as[a']? = some A' ∧
    A.wings[w]? = some W ∧ A'.wings[w']? = some W ∧ ∃ i j p, cell W.panels i j = some p

/-- A wing of one of the airplanes was made with a mirror image, its control surfaces are symmetric or undeflected, and
its panels, of which there are some, lie in the mirror: like a fin that was declared symmetric. -/
def WingInItsMirror (as : List Airplane) : Prop :=
  ∃ (A : Airplane) (W : Wing) (sections : List WingCrossSection) (le n u : V3) (m : ℕ) (sp : String),
    A ∈ as ∧ W ∈ A.wings ∧ Wing.create sections le n true u m sp = .ok W ∧ n.norm = 1 ∧
    (∀ s ∈ sections.dropLast, s.controlSurfaceType = "symmetric" ∨ s.deflection = 0) ∧
    (∃ i j p, cell W.panels i j = some p) ∧
    ∀ i j p, cell W.panels i j = some p →
      ∀ q ∈ [p.frontLeft, p.frontRight, p.backLeft, p.backRight], (q - le).dot n = 0

end Ptera
