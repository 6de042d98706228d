import Verif.Spec.Made

/-! Specification vocabulary: the same airplane, built elsewhere and in another attitude. -/

namespace Ptera

/-- The arguments of a cross section, turned by `M`. Its leading edge is relative to the wing's. -/
def WingCrossSection.turned (M : M3) (s : WingCrossSection) : WingCrossSection :=
  { s with leadingEdge := M.mulVec s.leadingEdge, unitNormal := M.mulVec s.unitNormal }

/-- The wings `w` and `w'` were built from the same arguments, except that those of `w'` are turned by `M` and moved
by `t`. -/
def Wing.Moved (M : M3) (t : V3) (w w' : Wing) : Prop :=
  ∃ sections le n sym u m sp, Wing.create sections le n sym u m sp = .ok w ∧
    Wing.create (sections.map (WingCrossSection.turned M)) (M.mulVec le + t) (M.mulVec n) sym (M.mulVec u) m sp = .ok w'

/-- The airplanes `a` and `a'` were built from the same arguments, except that the wings and the reference point of
`a'` are turned by `M` and moved by `t`. -/
def Airplane.Moved (M : M3) (t : V3) (a a' : Airplane) : Prop :=
  ∃ wings wings' ref weight s c b, Airplane.create wings ref weight s c b = .ok a ∧
    Airplane.create wings' (M.mulVec ref + t) weight s c b = .ok a' ∧ List.Forall₂ (Wing.Moved M t) wings wings'

end Ptera
