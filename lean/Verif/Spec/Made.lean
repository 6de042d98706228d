import Verif.Model.Solver

/-! Specification vocabulary: objects a user can build, and the order of panels in a problem. -/

namespace Ptera

/-- The wing was built by the constructor. -/
def Wing.Made (w : Wing) : Prop :=
  ∃ sections le n sym u m sp, Wing.create sections le n sym u m sp = .ok w

/-- The airplane was built by the constructor from wings built by the constructor. -/
def Airplane.Made (a : Airplane) : Prop :=
  ∃ wings ref weight s c b, Airplane.create wings ref weight s c b = .ok a ∧ ∀ w ∈ wings, w.Made

/-- The order in which the panels of a problem are enumerated: by airplane, then wing, then chordwise row, then
spanwise column. -/
def PanelRef.Before (r r' : PanelRef) : Prop :=
  r.airplane < r'.airplane ∨ (r.airplane = r'.airplane ∧ (r.wing < r'.wing ∨ (r.wing = r'.wing ∧
    (r.row < r'.row ∨ (r.row = r'.row ∧ r.col < r'.col)))))

end Ptera
