import Verif.Spec.FlowField

/-! Specification vocabulary: the vortices of the wings with given strengths, and flows that do not pass through the
panels. -/

namespace Ptera

noncomputable section

/-- The points of the two sides of a panel a quarter of the way back. -/
def Panel.quarterRight (p : Panel) : V3 := p.frontRight + (1 / 4 : ℝ) • (p.backRight - p.frontRight)
def Panel.quarterLeft (p : Panel) : V3 := p.frontLeft + (1 / 4 : ℝ) • (p.backLeft - p.frontLeft)

/-- A horseshoe: along one leg to `right`, from there to `left`, and away along the other leg. -/
def horseshoeFilaments (right left leg : V3) (strength : ℝ) : List Seg :=
  [⟨right + leg, right, strength, 0⟩, ⟨right, left, strength, 0⟩, ⟨left, left + leg, strength, 0⟩]

/-- A horseshoe on the quarter chord of every panel, with legs of 20 spans of its wing along `direction`. -/
def horseshoesWith (as : List Airplane) (direction : V3) (strength : PanelRef → ℝ) : List Seg :=
  (panelRefs as).flatMap fun r =>
    match panelAt as r, wingAt as r with
    | some p, some w => horseshoeFilaments p.quarterRight p.quarterLeft ((20 * w.span) • direction) (strength r)
    | _, _ => []

/-- The back corners, right and left, of the ring of a panel: the quarter points of the panel behind it; in the last row
the quarter points of the panel itself, moved back by its sides and by `extra`. -/
def ringBackRight (as : List Airplane) (extra : V3) (r : PanelRef) (p : Panel) : V3 :=
  match panelAt as { r with row := r.row + 1 } with
  | some q => q.quarterRight
  | none => p.quarterRight + (p.backRight - p.frontRight) + extra
def ringBackLeft (as : List Airplane) (extra : V3) (r : PanelRef) (p : Panel) : V3 :=
  match panelAt as { r with row := r.row + 1 } with
  | some q => q.quarterLeft
  | none => p.quarterLeft + (p.backLeft - p.frontLeft) + extra

/-- A ring on every panel, from its quarter chord to the next one. -/
def ringsWith (as : List Airplane) (extra : V3) (strength : PanelRef → ℝ) : List Seg :=
  (panelRefs as).flatMap fun r =>
    match panelAt as r with
    | some p => ringFilaments (ringBackRight as extra r p) p.quarterRight p.quarterLeft (ringBackLeft as extra r p)
        (strength r) 0
    | none => []

/-- A horseshoe behind every panel of the last rows, with legs of 20 spans of its wing along `direction`. -/
def trailingWith (as : List Airplane) (direction : V3) (strength : PanelRef → ℝ) : List Seg :=
  (panelRefs as).flatMap fun r =>
    match panelAt as r, wingAt as r, panelAt as { r with row := r.row + 1 } with
    | some p, some w, none => horseshoeFilaments (ringBackRight as 0 r p) (ringBackLeft as 0 r p)
        ((20 * w.span) • direction) (strength r)
    | _, _, _ => []

/-- No flow passes through any panel at its collocation point, which moves with velocity `wall`. -/
def NoFlowThrough (as : List Airplane) (flow : V3 → V3) (wall : PanelRef → V3) : Prop :=
  ∀ r p, panelAt as r = some p → (flow p.collocationPoint - wall r).dot p.unitNormal = 0

/-- Velocity of the collocation point of a panel at step `k`: its displacement since the previous step over the time step;
at the first step it is at rest. -/
def wallVelocity (p : UnsteadyProblem) (k : ℕ) (r : PanelRef) : V3 :=
  match k with
  | 0 => 0
  | j + 1 =>
    match panelAt (p.airplanesAt (j + 1)) r, panelAt (p.airplanesAt j) r with
    | some now, some before => (1 / p.deltaTime) • (now.collocationPoint - before.collocationPoint)
    | _, _ => 0

/-- The strengths vanish on every panel. -/
def AllZero (as : List Airplane) (strength : PanelRef → ℝ) : Prop :=
  ∀ r p, panelAt as r = some p → strength r = 0

end

end Ptera
