import Verif.Model.Solver

/-!
# The velocity a panel's own vortices induce

The two methods of a panel that are asked for the velocity its vortices induce at a point.
-/

namespace Ptera

noncomputable section

/-- The attribute `calculate_normalized_induced_velocity` of a ring vortex, called with a point. `RingVortex`
(aerodynamics.py 191-340) defines `update_strength` and `update_position` only, so looking the method up raises. -/
def RingVortex.normalizedInducedVelocity (_ : RingVortex) (_ : V3) : Except Err V3 := .error .attributeError

/-- The attribute `calculate_induced_velocity` of a ring vortex; not defined either (aerodynamics.py 191-340). -/
def RingVortex.inducedVelocity (_ : RingVortex) (_ : V3) : Except Err V3 := .error .attributeError

/-- The attribute `calculate_normalized_induced_velocity` of a horseshoe vortex. `HorseshoeVortex`
(aerodynamics.py 106-188) defines `update_strength` only, so looking the method up raises. -/
def HorseshoeVortex.normalizedInducedVelocity (_ : HorseshoeVortex) (_ : V3) : Except Err V3 :=
  .error .attributeError

/-- The attribute `calculate_induced_velocity` of a horseshoe vortex; not defined either (aerodynamics.py
106-188). -/
def HorseshoeVortex.inducedVelocity (_ : HorseshoeVortex) (_ : V3) : Except Err V3 := .error .attributeError

/-- `if vortex is not None: velocity += vortex.method(point=point)` (panel.py 361-368 and 387-392). -/
def addVortex {α : Type} (vortex : Option α) (method : α → V3 → Except Err V3) (velocity point : V3) :
    Except Err V3 :=
  match vortex with
  | none => .ok velocity
  | some v => (method v point).map (velocity + ·)

/-- `Panel.calculate_normalized_induced_velocity` (panel.py 346-370). -/
def PanelState.normalizedInducedVelocity (s : PanelState) (point : V3) : Except Err V3 :=
  (addVortex s.ring RingVortex.normalizedInducedVelocity 0 point).bind fun v =>
    addVortex s.horseshoe HorseshoeVortex.normalizedInducedVelocity v point

/-- `Panel.calculate_induced_velocity` (panel.py 372-394). -/
def PanelState.inducedVelocity (s : PanelState) (point : V3) : Except Err V3 :=
  (addVortex s.ring RingVortex.inducedVelocity 0 point).bind fun v =>
    addVortex s.horseshoe HorseshoeVortex.inducedVelocity v point

end

end Ptera
