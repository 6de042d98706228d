import Verif.Model.Output
import Verif.Spec.Streamlines

/-! What the shown surfaces, colours and reports should be, see C51–C53 and C57–C60. -/

namespace Ptera

/-- Four corners. -/
structure Quad where
  a : V3
  b : V3
  c : V3
  d : V3

/-- The mesh consists of the given quadrilaterals in order: four own vertices each, and one face each, with the
vertices in the order `a`, `b`, `c`, `d`. -/
structure PolyData.Shows (D : PolyData) (quads : List Quad) : Prop where
  vertices : D.vertices.length = 4 * quads.length
  faces : D.faces.length = 5 * quads.length
  corners : ∀ (k : ℕ) q, quads[k]? = some q → ∃ i, D.faces[5 * k]? = some 4 ∧
    D.faces[5 * k + 1]? = some i ∧ D.faces[5 * k + 2]? = some (i + 1) ∧ D.faces[5 * k + 3]? = some (i + 2) ∧
    D.faces[5 * k + 4]? = some (i + 3) ∧ i = 4 * k ∧
    D.vertices[i]? = some q.a ∧ D.vertices[i + 1]? = some q.b ∧ D.vertices[i + 2]? = some q.c ∧
    D.vertices[i + 3]? = some q.d

/-- The panels of airplanes: airplane by airplane, wing by wing, row by row. -/
def allPanels (airplanes : List Airplane) : List Panel :=
  airplanes.flatMap fun a => a.wings.flatMap fun w => w.panels.flatten

/-- The corners of a panel, round it. -/
def Panel.quad (p : Panel) : Quad := ⟨p.frontLeft, p.frontRight, p.backRight, p.backLeft⟩

/-- The corners of a wake ring, round it. -/
def WakeSlot.quad (v : WakeSlot) : Quad := ⟨v.frontLeft, v.frontRight, v.backRight, v.backLeft⟩

/-- The labelled quantities beside the load components the labels name. -/
def Report.labelled (r : Report) (force moment forceCoefficients momentCoefficients : V3) : List (ℝ × ℝ) :=
  [(r.inducedDrag, force.x), (r.sideForce, force.y), (r.lift, force.z), (r.rollingMoment, moment.x),
   (r.pitchingMoment, moment.y), (r.yawingMoment, moment.z), (r.cdi, forceCoefficients.x),
   (r.cy, forceCoefficients.y), (r.cl, forceCoefficients.z), (r.cRoll, momentCoefficients.x),
   (r.cPitch, momentCoefficients.y), (r.cYaw, momentCoefficients.z)]

/-- The signs of the shown loads, as far as C51 holds: side force and moments never have the sign opposite to that of
their coefficients; drag and lift never have the same. -/
structure Report.SignsPartial (r : Report) : Prop where
  side : 0 ≤ r.sideForce * r.cy
  roll : 0 ≤ r.rollingMoment * r.cRoll
  pitch : 0 ≤ r.pitchingMoment * r.cPitch
  yaw : 0 ≤ r.yawingMoment * r.cYaw
  drag : r.inducedDrag * r.cdi ≤ 0
  lift : r.lift * r.cl ≤ 0

/-- The panel coefficient a scalar type stands for. -/
def scalarCoefficient (scalarType : Option String) : Option (PanelLoads → ℝ) :=
  if scalarType = some "induced drag" then some fun l => l.coefficients.inducedDrag
  else if scalarType = some "side force" then some fun l => l.coefficients.sideForce
  else if scalarType = some "lift" then some fun l => l.coefficients.lift
  else none

/-- What a picture of airplanes should show: every panel; the wanted coefficient of every panel, at the same place of
the list as the panel, with the colours that go with these values (C57). -/
structure Picture.Right (P : Picture) (airplanes : List Airplane) (loads : PanelRef → Option PanelLoads)
    (scalarType : Option String) : Prop where
  surfaces : P.surfaces.Shows ((allPanels airplanes).map Panel.quad)
  plain : scalarCoefficient scalarType = none → P.scalars = none
  coloured : ∀ f, scalarCoefficient scalarType = some f → ∃ (values : List ℝ) (c : Colors),
    P.scalars = some (values.map some, c) ∧ colors (values.map some) = .ok c ∧
    values.length = (allPanels airplanes).length ∧
    ∀ (k : ℕ) p, (allPanels airplanes)[k]? = some p → ∃ r L, (panelRefs airplanes)[k]? = some r ∧
      panelAt airplanes r = some p ∧ loads r = some L ∧ values[k]? = some (f L)

/-- The drawn lines are those joining the consecutive points of the streamlines in a velocity field that start at the
trailing edges of the airplanes and follow the velocity for 25 steps of 0.02 seconds. -/
def Picture.Streamlines (P : Picture) (airplanes : List Airplane) (velocity : V3 → V3) : Prop :=
  ∃ rows, IsStreamlines velocity (trailingEdgePoints airplanes) 25 (1 / 50) rows ∧
    ∀ a b, (a, b) ∈ P.lines ↔ ∃ (k j : ℕ) (row next : List V3), rows[k]? = some row ∧ rows[k + 1]? = some next ∧
      row[j]? = some a ∧ next[j]? = some b

end Ptera
