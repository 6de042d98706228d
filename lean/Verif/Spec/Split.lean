import Verif.Model.Geometry

/-!
# Specification of C82: a further cross section on the straight lines between two others
-/

namespace Ptera

/-- Two cross sections with the same airfoil, twist and orientation. -/
structure SameProfile (s t : WingCrossSection) : Prop where
  airfoil : t.airfoil = s.airfoil
  twist : t.twist = s.twist
  normal : t.unitNormal = s.unitNormal

/-- The cross section `s` with `k` panels between it and the next one. -/
def WingCrossSection.withPanels (s : WingCrossSection) (k : ℕ) : WingCrossSection := { s with numSpanwisePanels := k }

/-- The cross section like `s` on the straight way from `s` to `t`, after `k` of `k + l` equal steps, with the other `l`
panels between it and `t`: its leading edge and chord are in between in proportion. -/
noncomputable def WingCrossSection.between (s t : WingCrossSection) (k l : ℕ) : WingCrossSection :=
  { s with leadingEdge := (l / (k + l) : ℝ) • s.leadingEdge + (k / (k + l) : ℝ) • t.leadingEdge
           chord := l / (k + l) * s.chord + k / (k + l) * t.chord
           numSpanwisePanels := l }

end Ptera
