import Verif.Spec.Made
import Verif.Lemmas.MeshAssembly

/-! Specification vocabulary: airplanes that are mirror images of each other in the plane `y = 0`. -/

namespace Ptera

/-- The mirror image of a point or vector in the plane `y = 0`. -/
def mirrored (v : V3) : V3 := ⟨v.x, -v.y, v.z⟩

/-- Panel `p'` is the mirror image of panel `p`. A panel of a wing that spans to both sides of the plane has its left
edge where the other had its right edge (`swapped`); a panel of a fin has not. -/
def Panel.IsMirror (swapped : Bool) (p p' : Panel) : Prop :=
  p'.frontLeft = mirrored (if swapped then p.frontRight else p.frontLeft) ∧
  p'.frontRight = mirrored (if swapped then p.frontLeft else p.frontRight) ∧
  p'.backLeft = mirrored (if swapped then p.backRight else p.backLeft) ∧
  p'.backRight = mirrored (if swapped then p.backLeft else p.backRight)

/-- Wing `w'` is the mirror image of wing `w`, panel by panel: with the columns counted from the other end if left and
right are exchanged, with the columns in the same order if not. -/
def Wing.IsMirror (w w' : Wing) : Prop :=
  w'.span = w.span ∧ w'.numSpanwisePanels = w.numSpanwisePanels ∧ w'.panels.length = w.panels.length ∧
  ∃ swapped : Bool, ∀ i j p p', cell w.panels i j = some p →
    cell w'.panels i (if swapped then w.numSpanwisePanels - 1 - j else j) = some p' → p.IsMirror swapped p'

/-- Airplane `a'` is the mirror image of airplane `a`, with the same reference dimensions. -/
def Airplane.IsMirror (a a' : Airplane) : Prop :=
  a'.xyzRef = mirrored a.xyzRef ∧ a'.sRef = a.sRef ∧ a'.cRef = a.cRef ∧ a'.bRef = a.bRef ∧
  List.Forall₂ Wing.IsMirror a.wings a'.wings

end Ptera
