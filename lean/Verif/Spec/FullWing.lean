import Verif.Model.Geometry

/-!
# Specification of C98: a symmetric wing, and the same wing with both of its halves given
-/

namespace Ptera

/-- The mirror image of a direction (or of a position seen from a point of the plane) in the plane with the unit normal
`n`. -/
noncomputable def V3.across (n v : V3) : V3 := v - (2 * v.dot n) • n

/-- The cross section on the left-hand half that belongs to `outer`, seen from the point `origin`: the leading edge is the
mirror image, the airfoil, chord and twist are those of `outer`, and the normal points to the right again. As the next
section to the right of it is the image of `inner`, it has the panels and the control surface between `inner` and `outer`,
with the deflection reversed for an asymmetric control surface. -/
noncomputable def WingCrossSection.onLeft (n origin : V3) (inner outer : WingCrossSection) : WingCrossSection :=
  { outer with
    leadingEdge := n.across outer.leadingEdge - origin
    unitNormal := -(n.across outer.unitNormal)
    controlSurfaceType := inner.controlSurfaceType
    hinge := inner.hinge
    deflection := if inner.controlSurfaceType = "symmetric" then inner.deflection else -inner.deflection
    numSpanwisePanels := inner.numSpanwisePanels
    spanwiseSpacing := inner.spanwiseSpacing }

/-- The cross sections of the left-hand half from its tip inwards, without the root. -/
noncomputable def leftHalf (n origin : V3) : List WingCrossSection → List WingCrossSection
  | inner :: outer :: rest => leftHalf n origin (outer :: rest) ++ [inner.onLeft n origin outer]
  | _ => []

/-- A cross section seen from the point `origin`. -/
def WingCrossSection.seenFrom (origin : V3) (s : WingCrossSection) : WingCrossSection :=
  { s with leadingEdge := s.leadingEdge - origin }

/-- All cross sections of a wing, of which the right-hand half is given, from the left tip to the right tip. -/
noncomputable def bothHalves (n origin : V3) (sections : List WingCrossSection) : List WingCrossSection :=
  leftHalf n origin sections ++ sections.map (WingCrossSection.seenFrom origin)

end Ptera
