import Verif.Model.Geometry

/-!
# Specification of C61 and C62: points of camber lines and of the loft between cross sections
-/

namespace Ptera

/-- The distance of two points of the plane. -/
noncomputable def dist2 (p q : ℝ × ℝ) : ℝ := Real.sqrt ((p.1 - q.1) ^ 2 + (p.2 - q.2) ^ 2)

/-- The length of the polygonal line through the points of a list. -/
noncomputable def arcLength : List (ℝ × ℝ) → ℝ
  | p :: q :: l => dist2 p q + arcLength (q :: l)
  | _ => 0

/-- `point` is on the polygonal line `curve`, between its points `j` and `j + 1`, and the length of the
line up to it is `s`. -/
def OnLineAt (curve : List (ℝ × ℝ)) (s : ℝ) (point : ℝ × ℝ) : Prop :=
  ∃ (j : ℕ) (p q : ℝ × ℝ) (t : ℝ), curve[j]? = some p ∧ curve[j + 1]? = some q ∧ 0 ≤ t ∧ t ≤ 1 ∧
    point = (1 - t) • p + t • q ∧ s = arcLength (curve.take (j + 1)) + t * dist2 p q

/-- A camber line of at least two points, neighbouring ones distinct. -/
def Airfoil.Regular (a : Airfoil) : Prop := 2 ≤ a.mcl.length ∧ a.mcl.IsChain (· ≠ ·)

/-- Point `j` of `n + 1` points from 0 to 1, equally spaced or with cosine spacing. -/
noncomputable def spaced (spacing : String) (n j : ℕ) : ℝ :=
  if spacing = "uniform" then (j : ℝ) / n else (1 - Real.cos (Real.pi * (j / n))) / 2

/-- Where the point `p` of the camber line of a cross section is, on a wing with the leading edge `le` and the chordwise
direction `u`: `p` is scaled by the chord, and measured along the chordwise direction turned by the twist about the
section's normal and along the direction orthogonal to this one and the normal. -/
noncomputable def sectionPosition (le u : V3) (s : WingCrossSection) (p : ℝ × ℝ) : V3 :=
  let back := (angleAxisRotationMatrix (s.twist * Real.pi / 180) s.unitNormal).mulVec u
  le + s.leadingEdge + s.chord • (p.1 • back + p.2 • back.cross s.unitNormal)

/-- `x` is on the straight line between the points at the fraction `f` of the camber lines `a` of section `s` and `b` of
section `t`, at the fraction `r` of the way. -/
def LoftPoint (le u : V3) (s t : WingCrossSection) (a b : List (ℝ × ℝ)) (f r : ℝ) (x : V3) : Prop :=
  ∃ p q, OnLineAt a (f * arcLength a) p ∧ OnLineAt b (f * arcLength b) q ∧
    x = (1 - r) • sectionPosition le u s p + r • sectionPosition le u t q

end Ptera
