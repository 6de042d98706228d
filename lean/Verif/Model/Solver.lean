import Verif.Model.Movement
import Verif.Model.Aerodynamics

/-!
# Parts common to the three solvers

Panel objects are mutable and are referenced both from `wing.panels` and from the flattened array
`solver.panels`. A panel object is identified here by its place in the problem (`PanelRef`); its geometry never
changes after meshing and is read from the airplanes, its solver-dependent attributes live in a heap
`PanelRef → PanelState`. Simplification: no wing object occurs twice in one problem (then two places would be the
same object).
-/

namespace Ptera

noncomputable section

/-! ## Panel objects -/

/-- Identity of a panel object (geometry.py 339, problems.py 38): `airplanes[airplane].wings[wing].panels[row, col]`. -/
structure PanelRef where
  airplane : ℕ
  wing : ℕ
  row : ℕ
  col : ℕ
  deriving DecidableEq

/-- The load attributes of a panel (panel.py 128-134): `near_field_force_geometry_axes`, ...; `None` before the
loads are processed, see `PanelState.loads`. -/
structure PanelLoads where
  forceGeometry : V3
  momentGeometry : V3
  forceWind : V3
  momentWind : V3
  coefficients : PanelCoefficients

/-- The solver-dependent attributes of a panel (panel.py 123-134), all `None` at first. -/
structure PanelState where
  ring : Option RingVortex := none
  horseshoe : Option HorseshoeVortex := none
  loads : Option PanelLoads := none

/-- The mutable attributes of all panel objects of a problem (panel.py 123-134). -/
abbrev PanelHeap := PanelRef → PanelState

/-- The panels right after construction of the problem (panel.py 123-134). -/
def PanelHeap.fresh : PanelHeap := fun _ => {}

/-- `airplane.wings[w]` (geometry.py 48-147). -/
def wingAt (airplanes : List Airplane) (r : PanelRef) : Option Wing :=
  airplanes[r.airplane]?.bind fun a => a.wings[r.wing]?

/-- `airplanes[a].wings[w].panels[i, j]` (geometry.py 339), its geometric attributes. -/
def panelAt (airplanes : List Airplane) (r : PanelRef) : Option Panel :=
  (wingAt airplanes r).bind fun w => w.panels[r.row]?.bind fun row => row[r.col]?

/-- A value returned only for a reference to no panel; it models nothing in /repo. -/
def noPanel : Panel :=
  { frontRight := 0, frontLeft := 0, backLeft := 0, backRight := 0, isLeadingEdge := false, isTrailingEdge := false }

/-- Geometry of a referenced panel (panel.py 75-134). -/
def geometryOf (airplanes : List Airplane) (r : PanelRef) : Panel := (panelAt airplanes r).getD noPanel

/-- The panels of one airplane (functions.py 325-330) in the order of
`for wing in airplane.wings: for panel in np.ravel(wing.panels)` (row-major order). -/
def airplaneRefs (airplane : Airplane) (index : ℕ) : List PanelRef :=
  airplane.wings.zipIdx.flatMap fun w =>
    w.1.panels.zipIdx.flatMap fun row =>
      (List.range row.1.length).map fun j => ⟨index, w.2, row.2, j⟩

/-- The panels of a problem in the order of the triple loop
`for airplane in airplanes: for wing in airplane.wings: for panel in np.ravel(wing.panels)`
(steady_horseshoe_vortex_lattice_method.py 205-211, steady_ring_vortex_lattice_method.py 268-275, unsteady_ring_vortex_lattice_method.py 577-584; the loops over
`range(num_chordwise_panels)`, `range(num_spanwise_panels)` of the `initialize_panel_vortices` methods visit the
same panels in the same order, by C18). -/
def panelRefs (airplanes : List Airplane) : List PanelRef :=
  airplanes.zipIdx.flatMap fun a => airplaneRefs a.1 a.2

/-- `num_panels` of a solver (steady_horseshoe_vortex_lattice_method.py 72-75, steady_ring_vortex_lattice_method.py 74-77). -/
def totalPanels (airplanes : List Airplane) : ℕ := (airplanes.map (·.numPanels)).sum

/-- `array[index] = value` (functions.py 547-607), raising `IndexError` out of bounds. -/
def writeAt {α : Type} (array : List α) (index : ℕ) (value : α) : Except Err (List α) :=
  if index < array.length then .ok (array.set index value) else .error .indexError

/-- The streamline seed point of a trailing-edge panel (functions.py 599-607, steady_horseshoe_vortex_lattice_method.py 244-256). -/
def seedPoint (p : Panel) : V3 := p.backLeft + (0.5 : ℝ) • (p.backRight - p.backLeft)

/-! ## Linear algebra -/

/-- `A @ x` for a list of rows: the equation solved in steady_horseshoe_vortex_lattice_method.py 293-296. -/
def matVec (A : List (List ℝ)) (x : List ℝ) : List ℝ := A.map fun row => (List.zipWith (· * ·) row x).sum

open Classical in
/-- `np.linalg.solve(A, b)` (steady_horseshoe_vortex_lattice_method.py 293, steady_ring_vortex_lattice_method.py 367, unsteady_ring_vortex_lattice_method.py 783) for a square matrix: the unique solution, `LinAlgError` if the matrix is singular.
(A square system has a unique solution for one right-hand side exactly if the matrix is non-singular.) -/
def linalgSolve (A : List (List ℝ)) (b : List ℝ) : Except Err (List ℝ) :=
  if h : ∃! x : List ℝ, x.length = A.length ∧ matVec A x = b then .ok h.choose else .error .linAlgError

/-- `np.einsum("...k,...k->...", influences, np.expand_dims(normals, axis=1))`
(steady_horseshoe_vortex_lattice_method.py 280-285, steady_ring_vortex_lattice_method.py 353-359, unsteady_ring_vortex_lattice_method.py 694-700): entry `[i, j]` is
`influences[i, j] · normals[i]`. -/
def normalComponents (influences : List (List V3)) (normals : List V3) : List (List ℝ) :=
  List.zipWith (fun row n => row.map fun v => v.dot n) influences normals

/-- `calculate_steady_freestream_wing_influences` (functions.py 610-623): `freestream · normal` per panel. -/
def freestreamInfluences (freestream : V3) (normals : List V3) : List ℝ := normals.map fun n => freestream.dot n

/-! ## Kutta-Joukowski -/

/-- `density * strengths[:, None] * np.cross(velocities, vectors)`
(steady_horseshoe_vortex_lattice_method.py 351-355, steady_ring_vortex_lattice_method.py 572-598, unsteady_ring_vortex_lattice_method.py 985-1008). -/
def kuttaForces (density : ℝ) (strengths : List ℝ) (velocities vectors : List V3) : List V3 :=
  List.zipWith (fun s vl => (density * s) • vl) strengths (explicitCross velocities vectors)

/-- `np.cross(centers - references, forces)` (steady_horseshoe_vortex_lattice_method.py 359-363, steady_ring_vortex_lattice_method.py 610-624,
unsteady_ring_vortex_lattice_method.py 1028-1055). -/
def momentsAbout (centers references forces : List V3) : List V3 :=
  explicitCross (List.zipWith (· - ·) centers references) forces

/-! ## Load processing -/

/-- The total loads of an airplane (geometry.py 124-127). -/
structure AirplaneLoads where
  forceWind : V3
  momentWind : V3
  forceCoefficients : V3
  momentCoefficients : V3

/-- One pass of the loop over the solver's panels in `process_steady_solver_forces` (functions.py 299-315) and
`process_unsteady_solver_forces` (functions.py 430-446). -/
def panelLoads (op : OperatingPoint) (panel : Panel) (force moment : V3) : PanelLoads :=
  let rotation := op.rotationWindToGeometry.transpose
  { forceGeometry := force
    momentGeometry := moment
    forceWind := rotation.mulVec force
    momentWind := rotation.mulVec moment
    coefficients := panel.updateCoefficients (rotation.mulVec force) op.dynamicPressure }

/-- The panel loop of `process_steady_solver_forces` (functions.py 299-315) and
`process_unsteady_solver_forces` (functions.py 430-446); `panels` is `solver.panels`. A missing row of the force
array would be an `IndexError` in Python (zero here); C38 shows the arrays have one row per panel. -/
def storePanelLoads (op : OperatingPoint) (airplanes : List Airplane) (panels : List PanelRef)
    (forces moments : List V3) (heap : PanelHeap) : PanelHeap :=
  panels.zipIdx.foldl
    (fun heap r => Function.update heap r.1
      { heap r.1 with
        loads := some (panelLoads op (geometryOf airplanes r.1) (forces.getD r.2 0) (moments.getD r.2 0)) })
    heap

/-- `panel.near_field_force_geometry_axes` (panel.py 128; an unset attribute reads as zero here; `None` in Python). -/
def PanelState.force (s : PanelState) : V3 := (s.loads.map (·.forceGeometry)).getD 0
/-- `panel.near_field_moment_geometry_axes` (panel.py 129). -/
def PanelState.moment (s : PanelState) : V3 := (s.loads.map (·.momentGeometry)).getD 0

/-- The totals and coefficients of one airplane (functions.py 322-396, 453-528). A zero dynamic pressure or
reference dimension gives infinities or NaN in Python; theorems exclude it. -/
def airplaneLoads (op : OperatingPoint) (heap : PanelHeap) (airplane : Airplane) (index : ℕ) : AirplaneLoads :=
  let rotation := op.rotationWindToGeometry.transpose
  let q := op.dynamicPressure
  let totalForce := (airplaneRefs airplane index).foldl (fun total r => total + (heap r).force) 0
  let totalMoment := (airplaneRefs airplane index).foldl (fun total r => total + (heap r).moment) 0
  let force := rotation.mulVec totalForce
  let moment := rotation.mulVec totalMoment
  { forceWind := force
    momentWind := moment
    forceCoefficients :=
      ⟨-force.x / q / airplane.sRef, force.y / q / airplane.sRef, -force.z / q / airplane.sRef⟩
    momentCoefficients :=
      ⟨moment.x / q / airplane.sRef / airplane.bRef, moment.y / q / airplane.sRef / airplane.cRef,
       moment.z / q / airplane.sRef / airplane.bRef⟩ }

/-- `process_steady_solver_forces` (functions.py 270-396) and `process_unsteady_solver_forces`
(functions.py 399-528), which differ only in where they find the operating point and the airplanes. -/
def processForces (op : OperatingPoint) (airplanes : List Airplane) (panels : List PanelRef)
    (forces moments : List V3) (heap : PanelHeap) : PanelHeap × List AirplaneLoads :=
  let heap := storePanelLoads op airplanes panels forces moments heap
  (heap, airplanes.zipIdx.map fun a => airplaneLoads op heap a.1 a.2)

/-! ## The flattened arrays of the ring-vortex solvers -/

/-- One position of the flattened arrays filled by `update_ring_vortex_solvers_panel_attributes`
(functions.py 531-607). The parallel arrays, always written at the same index, are one array of records. -/
structure RingSlot where
  panel : PanelRef := ⟨0, 0, 0, 0⟩
  normal : V3 := 0
  area : ℝ := 0
  collocation : V3 := 0
  backRight : V3 := 0
  frontRight : V3 := 0
  frontLeft : V3 := 0
  backLeft : V3 := 0
  rightCenter : V3 := 0
  rightVector : V3 := 0
  frontCenter : V3 := 0
  frontVector : V3 := 0
  leftCenter : V3 := 0
  leftVector : V3 := 0
  backCenter : V3 := 0
  backVector : V3 := 0
  isTrailingEdge : Bool := false
  isLeadingEdge : Bool := false
  isRightEdge : Bool := false
  isLeftEdge : Bool := false
  momentReference : V3 := 0

/-- The record written for a panel with ring vortex `v` (functions.py 551-597). -/
def ringSlot (airplanes : List Airplane) (r : PanelRef) (v : RingVortex) : RingSlot :=
  let p := geometryOf airplanes r
  { panel := r
    normal := p.unitNormal
    area := p.area
    collocation := p.collocationPoint
    backRight := v.rightLeg.origin
    frontRight := v.rightLeg.termination
    frontLeft := v.leftLeg.origin
    backLeft := v.leftLeg.termination
    rightCenter := v.rightLeg.center
    rightVector := v.rightLeg.vector
    frontCenter := v.frontLeg.center
    frontVector := v.frontLeg.vector
    leftCenter := v.leftLeg.center
    leftVector := v.leftLeg.vector
    backCenter := v.backLeg.center
    backVector := v.backLeg.vector
    isTrailingEdge := p.isTrailingEdge
    isLeadingEdge := p.isLeadingEdge
    isRightEdge := p.isRightEdge
    isLeftEdge := p.isLeftEdge
    momentReference := (airplanes[r.airplane]?.map (·.xyzRef)).getD 0 }

/-- Strength of the ring vortex of `wing.panels[i, j]` on the wing of panel `r`. Python would raise for a missing
panel; a position outside the wing does not occur by C19. -/
def ringStrengthAt (heap : PanelHeap) (r : PanelRef) (i j : ℕ) : ℝ :=
  (((heap { r with row := i, col := j }).ring).map (·.strength)).getD 0

/-- Effective strength of the right leg (steady_ring_vortex_lattice_method.py 479-503, unsteady_ring_vortex_lattice_method.py 888-912). -/
def effectiveRight (airplanes : List Airplane) (heap : PanelHeap) (strength : ℝ) (r : PanelRef) : ℝ :=
  let p := geometryOf airplanes r
  if p.isRightEdge then strength else strength - ringStrengthAt heap r p.localChordwise (p.localSpanwise + 1)

/-- Effective strength of the front leg (steady_ring_vortex_lattice_method.py 505-528, unsteady_ring_vortex_lattice_method.py 914-937). -/
def effectiveFront (airplanes : List Airplane) (heap : PanelHeap) (strength : ℝ) (r : PanelRef) : ℝ :=
  let p := geometryOf airplanes r
  if p.isLeadingEdge then strength else strength - ringStrengthAt heap r (p.localChordwise - 1) p.localSpanwise

/-- Effective strength of the left leg (steady_ring_vortex_lattice_method.py 530-552, unsteady_ring_vortex_lattice_method.py 939-961). -/
def effectiveLeft (airplanes : List Airplane) (heap : PanelHeap) (strength : ℝ) (r : PanelRef) : ℝ :=
  let p := geometryOf airplanes r
  if p.isLeftEdge then strength else strength - ringStrengthAt heap r p.localChordwise (p.localSpanwise - 1)

end

end Ptera
