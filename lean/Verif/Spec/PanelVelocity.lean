import Verif.Spec.FlowField
import Verif.Model.PanelVelocity

/-! Specification vocabulary: the answers a panel should give when asked for the velocity of its own vortices. -/

namespace Ptera

/-- The straight filaments of the vortices that are on a panel. -/
def PanelState.filaments (s : PanelState) : List Seg :=
  (s.ring.map (·.filaments)).getD [] ++ (s.horseshoe.map (·.filaments)).getD []

/-- The same filaments with strength one. -/
def PanelState.unitFilaments (s : PanelState) : List Seg := s.filaments.map fun f => { f with strength := 1 }

/-- Asked for the velocity of its vortices at a point, the panel answers with that of their filaments, with their
strengths and with strength one. -/
def PanelState.AnswersAt (s : PanelState) (q : V3) : Prop :=
  s.inducedVelocity q = .ok (filamentFlow 0 s.filaments q) ∧
    s.normalizedInducedVelocity q = .ok (filamentFlow 0 s.unitFilaments q)

/-- Asked for the velocity of its vortices at a point, the panel raises an `AttributeError`, both with their
strengths and with strength one. -/
def PanelState.RaisesAt (s : PanelState) (q : V3) : Prop :=
  s.inducedVelocity q = .error .attributeError ∧ s.normalizedInducedVelocity q = .error .attributeError

end Ptera
