import Verif.Spec.Nearby
import Verif.Spec.Made

/-! Specification vocabulary: cross sections, wings and airplanes given with slightly different numbers. -/

namespace Ptera

/-- Two cross sections with the same airfoil, panels, and kind and hinge of control surface, whose deflections, leading
edges, chords, normals and twists differ by less than `δ`. -/
structure WingCrossSection.Near (δ : ℝ) (s t : WingCrossSection) : Prop where
  airfoil : t.airfoil = s.airfoil
  controlSurfaceType : t.controlSurfaceType = s.controlSurfaceType
  hinge : t.hinge = s.hinge
  deflection : |t.deflection - s.deflection| < δ
  numSpanwisePanels : t.numSpanwisePanels = s.numSpanwisePanels
  spanwiseSpacing : t.spanwiseSpacing = s.spanwiseSpacing
  leadingEdge : (t.leadingEdge - s.leadingEdge).norm < δ
  chord : |t.chord - s.chord| < δ
  unitNormal : (t.unitNormal - s.unitNormal).norm < δ
  twist : |t.twist - s.twist| < δ

/-- The airfoil has as many points on its upper as on its lower surface, its camber line begins in front of the hinge, and
deflecting the surface by `d` leaves the leading edge strictly in front of all other points and does not make two consecutive
points of the camber line coincide. -/
def Airfoil.FlapsRegularly (a : Airfoil) (d h : ℝ) : Prop :=
  ∃ (c : List (ℝ × ℝ)) (b : Airfoil), Airfoil.ofCoordinates c = .ok a ∧ c.length = 2 * argminX c + 1 ∧
    (a.mcl.getD 0 (0, 0)).1 ≤ h ∧ a.addControlSurface d h = .ok b ∧
    (∀ i < c.length, i ≠ argminX c → (b.coordinates.getD (argminX c) (0, 0)).1 < (b.coordinates.getD i (0, 0)).1) ∧
    b.mcl.IsChain (· ≠ ·)

/-- The control surfaces of all sections between two neighbouring cross sections can be deflected a little more or less:
both airfoils deflect regularly by the inner deflection and its opposite. -/
def RegularFlaps (S : List WingCrossSection) : Prop :=
  ∀ pre (s t : WingCrossSection) post, S = pre ++ s :: t :: post → ∀ d, d = s.deflection ∨ d = -s.deflection →
    s.airfoil.FlapsRegularly d s.hinge ∧ t.airfoil.FlapsRegularly d s.hinge

/-- Two wings built by the constructor, with the same panel numbers, spacing and symmetry, whose leading edges, normals
and chordwise directions, and whose cross sections one by one, differ by less than `δ`. If a deflection differs at all, the
control surfaces must be regular. -/
structure Wing.Near (δ : ℝ) (w w' : Wing) : Prop where
  made : w.Made
  made' : w'.Made
  symmetric : w'.spec.symmetric = w.spec.symmetric
  numChordwisePanels : w'.spec.numChordwisePanels = w.spec.numChordwisePanels
  chordwiseSpacing : w'.spec.chordwiseSpacing = w.spec.chordwiseSpacing
  leadingEdge : (w'.spec.leadingEdge - w.spec.leadingEdge).norm < δ
  unitNormal : (w'.spec.unitNormal - w.spec.unitNormal).norm < δ
  unitChordwise : (w'.spec.unitChordwise - w.spec.unitChordwise).norm < δ
  sections : List.Forall₂ (WingCrossSection.Near δ) w.sections w'.sections
  flaps : w'.sections.map (·.deflection) = w.sections.map (·.deflection) ∨ RegularFlaps w.sections

/-- Two optional numbers, both missing or both given and differing by less than `δ`. -/
def NearIfGiven (δ : ℝ) : Option ℝ → Option ℝ → Prop
  | none, none => True
  | some x, some y => |y - x| < δ
  | _, _ => False

/-- Two airplanes built by the constructor whose wings one by one, reference points and, where given, reference dimensions
differ by less than `δ`. -/
def Airplane.Near (δ : ℝ) (a a' : Airplane) : Prop :=
  ∃ (weight weight' : ℝ) (s s' c c' b b' : Option ℝ),
    Airplane.create a.wings a.xyzRef weight s c b = .ok a ∧
    Airplane.create a'.wings a'.xyzRef weight' s' c' b' = .ok a' ∧
    List.Forall₂ (Wing.Near δ) a.wings a'.wings ∧ (a'.xyzRef - a.xyzRef).norm < δ ∧
    NearIfGiven δ s s' ∧ NearIfGiven δ c c' ∧ NearIfGiven δ b b'

/-- Two airplanes whose reference points, reference dimensions, spans and panels, one by one, differ by less than `ε`. -/
structure Airplane.MeshNear (ε : ℝ) (a a' : Airplane) : Prop where
  made' : a'.Made
  xyzRef : (a'.xyzRef - a.xyzRef).norm < ε
  sRef : |a'.sRef - a.sRef| < ε
  cRef : |a'.cRef - a.cRef| < ε
  bRef : |a'.bRef - a.bRef| < ε
  wings : List.Forall₂ (fun w w' : Wing => List.Forall₂ (List.Forall₂ (Panel.Near ε)) w.panels w'.panels ∧ |w'.span - w.span| < ε)
    a.wings a'.wings

end Ptera
