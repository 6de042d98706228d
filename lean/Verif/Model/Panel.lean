import Verif.Core.Py

/-!
# Model of `pterasoftware/panel.py`

Only geometry here; the solver-dependent attributes are carried by the solver models.
-/

namespace Ptera

noncomputable section

/-- The geometric attributes of `Panel` set by `__init__` (panel.py 75-134) and by the mesher
(meshing.py 272-284). -/
@[ext] structure Panel where
  frontRight : V3
  frontLeft : V3
  backLeft : V3
  backRight : V3
  isLeadingEdge : Bool
  isTrailingEdge : Bool
  isRightEdge : Bool := false
  isLeftEdge : Bool := false
  localChordwise : ℕ := 0
  localSpanwise : ℕ := 0

namespace Panel

/-- `right_leg` (panel.py 136-145): from back to front. -/
def rightLeg (p : Panel) : V3 := p.frontRight - p.backRight
/-- `front_leg` (panel.py 147-156): from right to left. -/
def frontLeg (p : Panel) : V3 := p.frontLeft - p.frontRight
/-- `left_leg` (panel.py 158-167): from front to back. -/
def leftLeg (p : Panel) : V3 := p.backLeft - p.frontLeft
/-- `back_leg` (panel.py 169-178): from left to right. -/
def backLeg (p : Panel) : V3 := p.backRight - p.backLeft
/-- `front_right_vortex_vertex` (panel.py 180-189). -/
def frontRightVortexVertex (p : Panel) : V3 := p.backRight + (0.75 : ℝ) • p.rightLeg
/-- `front_left_vortex_vertex` (panel.py 191-200). -/
def frontLeftVortexVertex (p : Panel) : V3 := p.frontLeft + (0.25 : ℝ) • p.leftLeg
/-- `collocation_point` (panel.py 202-225). -/
def collocationPoint (p : Panel) : V3 :=
  let rightMark := p.backRight + (0.25 : ℝ) • p.rightLeg
  let leftMark := p.frontLeft + (0.75 : ℝ) • p.leftLeg
  let vector := leftMark - rightMark
  rightMark + (0.5 : ℝ) • vector
/-- `_first_diagonal` (panel.py 315-323). -/
def firstDiagonal (p : Panel) : V3 := p.frontRight - p.backLeft
/-- `_second_diagonal` (panel.py 325-333). -/
def secondDiagonal (p : Panel) : V3 := p.frontLeft - p.backRight
/-- `_cross` (panel.py 335-344). -/
def crossDiagonals (p : Panel) : V3 := p.firstDiagonal.cross p.secondDiagonal
/-- `area` (panel.py 227-241). -/
def area (p : Panel) : ℝ := p.crossDiagonals.norm / 2
/-- `unit_normal` (panel.py 243-254). NaN in Python when the diagonals are parallel. -/
def unitNormal (p : Panel) : V3 := (1 / p.crossDiagonals.norm) • p.crossDiagonals
/-- `unit_spanwise` (panel.py 256-271). -/
def unitSpanwise (p : Panel) : V3 :=
  let spanwise := (1 / 2 : ℝ) • (-p.frontLeg + p.backLeg)
  (1 / spanwise.norm) • spanwise
/-- `unit_chordwise` (panel.py 273-287). -/
def unitChordwise (p : Panel) : V3 :=
  let chordwise := (1 / 2 : ℝ) • (-p.rightLeg + p.leftLeg)
  (1 / chordwise.norm) • chordwise
/-- `average_span` (panel.py 289-300). -/
def averageSpan (p : Panel) : ℝ := (p.frontLeg.norm + p.backLeg.norm) / 2
/-- `average_chord` (panel.py 302-313). -/
def averageChord (p : Panel) : ℝ := (p.rightLeg.norm + p.leftLeg.norm) / 2
/-- `calculate_projected_area` (panel.py 396-421). -/
def projectedArea (p : Panel) (n : V3) : ℝ :=
  let proj1 := p.firstDiagonal - (p.firstDiagonal.dot n) • n
  let proj2 := p.secondDiagonal - (p.secondDiagonal.dot n) • n
  (proj1.cross proj2).norm / 2

end Panel

/-- The three coefficients written by `update_coefficients` (panel.py 423-434): induced drag, side force,
lift. -/
structure PanelCoefficients where
  inducedDrag : ℝ
  sideForce : ℝ
  lift : ℝ

/-- `update_coefficients` (panel.py 423-434), for a panel whose wind-axes force is `f`. -/
def Panel.updateCoefficients (p : Panel) (f : V3) (q : ℝ) : PanelCoefficients :=
  let inducedDrag := -f.x
  let sideForce := f.y
  let lift := -f.z
  { inducedDrag := inducedDrag / p.area / q
    sideForce := sideForce / p.area / q
    lift := lift / p.area / q }

end

end Ptera
