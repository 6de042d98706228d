import Verif.Model.Solver

/-!
# Model of `pterasoftware/unsteady_ring_vortex_lattice_method.py`

The airplanes, wings and panels of different time steps are different objects (movement.py creates new ones for
every step), so the mutable attributes of panels are a heap per step. Wake ring vortices are objects shared between
the wings of different steps: a wing's `wake_ring_vortices` holds references (`ℕ`, `none` for Python's `None`) into
the table `objects`.
-/

namespace Ptera

noncomputable section

/-- Identity of a wing object (problems.py 122-143): `steady_problems[step].airplanes[airplane].wings[wing]`. -/
structure WingRef where
  step : ℕ
  airplane : ℕ
  wing : ℕ
  deriving DecidableEq

/-- One position of the arrays describing the wake at one step (unsteady_ring_vortex_lattice_method.py 233-246): strength, age and the four
vertices. The parallel arrays, always written at the same index, are one array of records. -/
structure WakeSlot where
  strength : ℝ := 0
  age : ℝ := 0
  frontRight : V3 := 0
  frontLeft : V3 := 0
  backLeft : V3 := 0
  backRight : V3 := 0

/-- One position of the arrays describing the previous step's panels (unsteady_ring_vortex_lattice_method.py 393-410). -/
structure LastSlot where
  collocation : V3 := 0
  strength : ℝ := 0
  backRight : V3 := 0
  frontRight : V3 := 0
  frontLeft : V3 := 0
  backLeft : V3 := 0
  rightCenter : V3 := 0
  frontCenter : V3 := 0
  leftCenter : V3 := 0
  backCenter : V3 := 0

/-- The result lists of an unsteady problem (problems.py 98-120): forces, force coefficients, moments and moment
coefficients in wind axes, one entry appended per airplane. -/
structure ResultLists where
  forces : List V3 := []
  forceCoefficients : List V3 := []
  moments : List V3 := []
  momentCoefficients : List V3 := []

/-- The mutable attributes of the objects a solver works on (panel.py 123-134, geometry.py 341-344, problems.py 98-120,
aerodynamics.py 230-270). -/
structure UnsteadyObjects where
  /-- panel objects, by step -/
  panels : ℕ → PanelHeap := fun _ => PanelHeap.fresh
  /-- the total loads of the airplanes, by step -/
  loads : ℕ → List AirplaneLoads := fun _ => []
  /-- `wing.wake_ring_vortex_vertices` (geometry.py 343) -/
  vertices : WingRef → List (List V3) := fun _ => []
  /-- `wing.wake_ring_vortices` (geometry.py 344); simplification: an array with no rows has no columns -/
  wakes : WingRef → List (List (Option ℕ)) := fun _ => []
  /-- the wake ring vortex objects -/
  objects : ℕ → RingVortex := fun _ => RingVortex.mk' 0 0 0 0 0
  /-- number of wake ring vortex objects created so far; the objects are `0, …, allocated - 1` -/
  allocated : ℕ := 0
  /-- `final_near_field_...` (problems.py 98-104) -/
  final : ResultLists := {}
  /-- `final_mean_near_field_...` (problems.py 106-112) -/
  finalMean : ResultLists := {}
  /-- `final_rms_near_field_...` (problems.py 114-120) -/
  finalRms : ResultLists := {}

/-- The attributes of `UnsteadyRingVortexLatticeMethodSolver` (unsteady_ring_vortex_lattice_method.py 93-178) and of the objects it works on. -/
structure UnsteadySolver extends UnsteadyObjects where
  problem : UnsteadyProblem
  /-- `num_wake_ring_vortices_list` -/
  wakeCounts : List ℕ := []
  /-- `wake_ring_vortex_strengths_list` and the five lists beside it -/
  wakeArrays : List (List WakeSlot) := []
  /-- `current_step` -/
  step : ℕ := 0
  slots : List RingSlot := []
  lasts : List LastSlot := []
  seedPoints : List V3 := []
  /-- `current_wing_wing_influences` -/
  influences : List (List ℝ) := []
  /-- `current_freestream_wing_influences` -/
  freestream : List ℝ := []
  /-- `current_wake_wing_influences` -/
  wake : List ℝ := []
  /-- `current_vortex_strengths` -/
  strengths : List ℝ := []
  streamlines : Option (List (List V3)) := none

/-- The wings of one step (unsteady_ring_vortex_lattice_method.py 218-226, 576-577) in the order of `for airplane in airplanes: for wing in airplane.wings`. -/
def wingRefs (step : ℕ) (airplanes : List Airplane) : List WingRef :=
  airplanes.zipIdx.flatMap fun a => (List.range a.1.wings.length).map fun w => ⟨step, a.2, w⟩

/-- `steady_problems[k].airplanes`. A step beyond the problem's is an `IndexError` in Python; it does not occur, by
C31. -/
def UnsteadyProblem.airplanesAt (p : UnsteadyProblem) (k : ℕ) : List Airplane :=
  ((p.steadyProblems[k]?).map (·.airplanes)).getD []

/-- `steady_problems[k].operating_point` (unsteady_ring_vortex_lattice_method.py 332-334). -/
def UnsteadyProblem.operatingPointAt (p : UnsteadyProblem) (k : ℕ) : OperatingPoint :=
  ((p.steadyProblems[k]?).map (·.operatingPoint)).getD {}

/-- The wing object referred to (problems.py 122-143). -/
def UnsteadyProblem.wing? (p : UnsteadyProblem) (w : WingRef) : Option Wing :=
  (p.airplanesAt w.step)[w.airplane]?.bind fun a => a.wings[w.wing]?

namespace UnsteadySolver

/-- `__init__` (unsteady_ring_vortex_lattice_method.py 93-178); `steady_problems[0]` is an `IndexError` for a problem without steps. -/
def create (problem : UnsteadyProblem) (objects : UnsteadyObjects := {}) : Except Err UnsteadySolver :=
  match problem.steadyProblems with
  | [] => .error .indexError
  | _ :: _ => .ok { toUnsteadyObjects := objects, problem := problem }

/-- `current_airplanes` (unsteady_ring_vortex_lattice_method.py 329-331). -/
def airplanes (s : UnsteadySolver) : List Airplane := s.problem.airplanesAt s.step
/-- `current_operating_point` (unsteady_ring_vortex_lattice_method.py 332-334). -/
def operatingPoint (s : UnsteadySolver) : OperatingPoint := s.problem.operatingPointAt s.step
/-- `current_freestream_velocity_geometry_axes` (unsteady_ring_vortex_lattice_method.py 335-337). -/
def freestreamVelocity (s : UnsteadySolver) : V3 := s.operatingPoint.freestreamVelocity
/-- `delta_time` (problems.py 70). -/
def deltaTime (s : UnsteadySolver) : ℝ := s.problem.deltaTime

/-! ## Before the steps -/

/-- `this_num_spanwise_panels` (unsteady_ring_vortex_lattice_method.py 218-226). -/
def totalSpanwise (airplanes : List Airplane) : ℕ :=
  (airplanes.map fun a => (a.wings.map (·.numSpanwisePanels)).sum).sum

/-- The preallocation loop of `run` (unsteady_ring_vortex_lattice_method.py 213-263): `step * this_num_spanwise_panels` zero records are appended
for every step. -/
def preallocate (s : UnsteadySolver) : UnsteadySolver :=
  let counts := (List.range s.problem.numSteps).map fun k => k * totalSpanwise (s.problem.airplanesAt k)
  { s with
    wakeCounts := s.wakeCounts ++ counts
    wakeArrays := s.wakeArrays ++ counts.map fun n => List.replicate n {} }

/-- The back-left vertex of a panel's ring (unsteady_ring_vortex_lattice_method.py 516-546): at the trailing edge the panel's own left side past
its front vertex, plus a quarter of the distance travelled during a time step. -/
def backLeftVertex (airplanes : List Airplane) (freestream : V3) (dt : ℝ) (r : PanelRef) : V3 :=
  let p := geometryOf airplanes r
  if p.isTrailingEdge then
    p.frontLeftVortexVertex + (p.backLeft - p.frontLeft) + (0.25 : ℝ) • (dt • freestream)
  else (geometryOf airplanes { r with row := r.row + 1 }).frontLeftVortexVertex

/-- The back-right vertex of a panel's ring (unsteady_ring_vortex_lattice_method.py 516-555). -/
def backRightVertex (airplanes : List Airplane) (freestream : V3) (dt : ℝ) (r : PanelRef) : V3 :=
  let p := geometryOf airplanes r
  if p.isTrailingEdge then
    p.frontRightVortexVertex + (p.backRight - p.frontRight) + (0.25 : ℝ) • (dt • freestream)
  else (geometryOf airplanes { r with row := r.row + 1 }).frontRightVortexVertex

/-- The ring vortex given to a panel (unsteady_ring_vortex_lattice_method.py 557-562). The strength `None` is overwritten before it is read; it is
zero here. -/
def panelRing (airplanes : List Airplane) (freestream : V3) (dt : ℝ) (r : PanelRef) : RingVortex :=
  let p := geometryOf airplanes r
  RingVortex.mk' p.frontLeftVortexVertex p.frontRightVortexVertex (backLeftVertex airplanes freestream dt r)
    (backRightVertex airplanes freestream dt r) 0

/-- The panel loop of `initialize_panel_vortices` for one step (unsteady_ring_vortex_lattice_method.py 500-562). -/
def initializeStep (airplanes : List Airplane) (freestream : V3) (dt : ℝ) (heap : PanelHeap) : PanelHeap :=
  (panelRefs airplanes).foldl
    (fun heap r => Function.update heap r
      { heap r with ring := some (panelRing airplanes freestream dt r) }) heap

/-- `initialize_panel_vortices` (unsteady_ring_vortex_lattice_method.py 478-562): all steps. -/
def initializePanelVortices (s : UnsteadySolver) : UnsteadySolver :=
  { s with
    panels := fun k =>
      initializeStep (s.problem.airplanesAt k) (s.problem.operatingPointAt k).freestreamVelocity
        s.problem.deltaTime (s.panels k) }

/-! ## One step -/

/-- The attributes set anew at the beginning of a step (unsteady_ring_vortex_lattice_method.py 328-431). -/
def beginStep (s : UnsteadySolver) (k : ℕ) : UnsteadySolver :=
  let n := totalPanels (s.problem.airplanesAt k)
  { s with
    step := k
    influences := List.replicate n (List.replicate n 0)
    freestream := List.replicate n 0
    wake := List.replicate n 0
    strengths := List.replicate n 1
    slots := List.replicate n {}
    seedPoints := []
    lasts := List.replicate n {} }

/-- One pass of the panel loop of `collapse_geometry` (unsteady_ring_vortex_lattice_method.py 587-599 and functions.py 531-607). -/
def collapsePanel (state : UnsteadySolver × ℕ) (r : PanelRef) : Except Err (UnsteadySolver × ℕ) :=
  let s := state.1
  match (s.panels s.step r).ring with
  | none => .error .attributeError
  | some v => do
    let slots ← writeAt s.slots state.2 (ringSlot s.airplanes r v)
    let p := geometryOf s.airplanes r
    let seeds := if p.isTrailingEdge then s.seedPoints ++ [seedPoint p] else s.seedPoints
    pure ({ s with slots := slots, seedPoints := seeds }, state.2 + 1)

/-- The record of a wake ring (unsteady_ring_vortex_lattice_method.py 602-622). -/
def wakeSlot (v : RingVortex) : WakeSlot :=
  { strength := v.strength
    age := v.age
    frontRight := v.frontRight
    frontLeft := v.frontLeft
    backLeft := v.backLeft
    backRight := v.backRight }

/-- The references of the wake rings of the current step's wings, `np.ravel(wing.wake_ring_vortices)` for every wing
in order (unsteady_ring_vortex_lattice_method.py 578-585, 601). -/
def wakeRefs (s : UnsteadySolver) : List (Option ℕ) :=
  (wingRefs s.step s.airplanes).flatMap fun w => (s.wakes w).flatten

/-- One pass of the wake loop of `collapse_geometry` (unsteady_ring_vortex_lattice_method.py 601-624); the state is the current step's wake array
and `global_wake_ring_vortex_position`. -/
def collapseWakeRing (objects : ℕ → RingVortex) (state : List WakeSlot × ℕ) (ref : Option ℕ) :
    Except Err (List WakeSlot × ℕ) :=
  match ref with
  | none => .error .attributeError
  | some a => do
    let array ← writeAt state.1 state.2 (wakeSlot (objects a))
    pure (array, state.2 + 1)

/-- The record of a panel of the previous step (unsteady_ring_vortex_lattice_method.py 641-667). -/
def lastSlot (p : Panel) (v : RingVortex) : LastSlot :=
  { collocation := p.collocationPoint
    strength := v.strength
    backRight := v.rightLeg.origin
    frontRight := v.rightLeg.termination
    frontLeft := v.leftLeg.origin
    backLeft := v.leftLeg.termination
    rightCenter := v.rightLeg.center
    frontCenter := v.frontLeg.center
    leftCenter := v.leftLeg.center
    backCenter := v.backLeg.center }

/-- One pass of the loop over the previous step's panels (unsteady_ring_vortex_lattice_method.py 637-670). -/
def collapseLast (airplanes : List Airplane) (heap : PanelHeap) (state : List LastSlot × ℕ) (r : PanelRef) :
    Except Err (List LastSlot × ℕ) :=
  match (heap r).ring with
  | none => .error .attributeError
  | some v => do
    let array ← writeAt state.1 state.2 (lastSlot (geometryOf airplanes r) v)
    pure (array, state.2 + 1)

/-- `collapse_geometry` (unsteady_ring_vortex_lattice_method.py 564-670). The panel arrays and the wake arrays are different arrays, so the two
inner loops of the loop over wings are two loops here. The wake arrays are those preallocated for this step, filled
in place. -/
def collapseGeometry (s : UnsteadySolver) : Except Err UnsteadySolver := do
  let r ← (panelRefs s.airplanes).foldlM collapsePanel (s, 0)
  let s := r.1
  let w ← s.wakeRefs.foldlM (collapseWakeRing s.objects) (s.wakeArrays.getD s.step [], 0)
  let s := { s with wakeArrays := s.wakeArrays.set s.step w.1 }
  if 0 < s.step then do
    let before := s.problem.airplanesAt (s.step - 1)
    let l ← (panelRefs before).foldlM (collapseLast before (s.panels (s.step - 1))) (s.lasts, 0)
    pure { s with lasts := l.1 }
  else pure s

/-- The current step's wake arrays (unsteady_ring_vortex_lattice_method.py 414-431). -/
def currentWake (s : UnsteadySolver) : List WakeSlot := s.wakeArrays.getD s.step []

/-- `calculate_wing_wing_influences` (unsteady_ring_vortex_lattice_method.py 672-700). -/
def calculateWingWingInfluences (s : UnsteadySolver) : UnsteadySolver :=
  let velocities := expandedRing (s.slots.map (·.collocation)) (s.slots.map (·.backRight))
    (s.slots.map (·.frontRight)) (s.slots.map (·.frontLeft)) (s.slots.map (·.backLeft)) s.strengths none
    s.operatingPoint.nu
  { s with influences := normalComponents velocities (s.slots.map (·.normal)) }

/-- The four methods computing flapping velocities (unsteady_ring_vortex_lattice_method.py 1474-1584): `these` and `last` select the point. -/
def flapping (s : UnsteadySolver) (these : RingSlot → V3) (last : LastSlot → V3) : List V3 :=
  if s.step < 1 then List.replicate (totalPanels s.airplanes) 0
  else List.zipWith (fun a b => (1 / s.deltaTime) • (-(these a - last b))) s.slots s.lasts

/-- `calculate_freestream_wing_influences` (unsteady_ring_vortex_lattice_method.py 702-736). -/
def calculateFreestreamInfluences (s : UnsteadySolver) : UnsteadySolver :=
  let normals := s.slots.map (·.normal)
  let free := normals.map fun n => n.dot s.freestreamVelocity
  let flap := List.zipWith V3.dot normals (s.flapping (·.collocation) (·.collocation))
  { s with freestream := List.zipWith (· + ·) free flap }

/-- Velocities induced by the whole wake (unsteady_ring_vortex_lattice_method.py 757-766, 831-840). -/
def wakeVelocity (s : UnsteadySolver) (points : List V3) : List V3 :=
  collapsedRing points (s.currentWake.map (·.backRight)) (s.currentWake.map (·.frontRight))
    (s.currentWake.map (·.frontLeft)) (s.currentWake.map (·.backLeft)) (s.currentWake.map (·.strength))
    (some (s.currentWake.map (·.age))) s.operatingPoint.nu

/-- `calculate_wake_wing_influences` (unsteady_ring_vortex_lattice_method.py 738-775). -/
def calculateWakeInfluences (s : UnsteadySolver) : UnsteadySolver :=
  { s with
    wake :=
      if 0 < s.step then
        List.zipWith V3.dot (s.wakeVelocity (s.slots.map (·.collocation))) (s.slots.map (·.normal))
      else List.replicate (totalPanels s.airplanes) 0 }

/-- One pass of the loop writing strengths back (unsteady_ring_vortex_lattice_method.py 789-795). -/
def storeStrength (strengths : List ℝ) (heap : PanelHeap) (t : RingSlot × ℕ) : PanelHeap :=
  Function.update heap t.1.panel
    { heap t.1.panel with
      ring := (heap t.1.panel).ring.map fun v => v.updateStrength (strengths.getD t.2 0) }

/-- `calculate_vortex_strengths` (unsteady_ring_vortex_lattice_method.py 777-795). -/
def calculateVortexStrengths (s : UnsteadySolver) : Except Err UnsteadySolver := do
  let x ← linalgSolve s.influences (List.zipWith (fun w f => -w - f) s.wake s.freestream)
  pure { s with
    strengths := x
    panels := Function.update s.panels s.step (s.slots.zipIdx.foldl (storeStrength x) (s.panels s.step)) }

/-- `calculate_solution_velocity` (unsteady_ring_vortex_lattice_method.py 797-853). -/
def solutionVelocity (s : UnsteadySolver) (points : List V3) : List V3 :=
  let wings := collapsedRing points (s.slots.map (·.backRight)) (s.slots.map (·.frontRight))
    (s.slots.map (·.frontLeft)) (s.slots.map (·.backLeft)) s.strengths none s.operatingPoint.nu
  (addRow wings (s.wakeVelocity points)).map fun v => v + s.freestreamVelocity

/-- The three arrays of effective strengths (unsteady_ring_vortex_lattice_method.py 871-964). -/
def effective (f : List Airplane → PanelHeap → ℝ → PanelRef → ℝ) (s : UnsteadySolver) : List ℝ :=
  (panelRefs s.airplanes).zipIdx.map fun r => f s.airplanes (s.panels s.step) (s.strengths.getD r.2 0) r.1

/-- Velocities at the centres of the right legs (unsteady_ring_vortex_lattice_method.py 976-979). -/
def rightVelocities (s : UnsteadySolver) : List V3 :=
  addRow (s.solutionVelocity (s.slots.map (·.rightCenter))) (s.flapping (·.rightCenter) (·.rightCenter))
/-- Velocities at the centres of the front legs (unsteady_ring_vortex_lattice_method.py 968-971). -/
def frontVelocities (s : UnsteadySolver) : List V3 :=
  addRow (s.solutionVelocity (s.slots.map (·.frontCenter))) (s.flapping (·.frontCenter) (·.frontCenter))
/-- Velocities at the centres of the left legs (unsteady_ring_vortex_lattice_method.py 972-975). -/
def leftVelocities (s : UnsteadySolver) : List V3 :=
  addRow (s.solutionVelocity (s.slots.map (·.leftCenter))) (s.flapping (·.leftCenter) (·.leftCenter))

/-- Forces on the right legs (unsteady_ring_vortex_lattice_method.py 985-992). -/
def rightForces (s : UnsteadySolver) : List V3 :=
  kuttaForces s.operatingPoint.density (s.effective effectiveRight) s.rightVelocities
    (s.slots.map (·.rightVector))
/-- Forces on the front legs (unsteady_ring_vortex_lattice_method.py 993-1000). -/
def frontForces (s : UnsteadySolver) : List V3 :=
  kuttaForces s.operatingPoint.density (s.effective effectiveFront) s.frontVelocities
    (s.slots.map (·.frontVector))
/-- Forces on the left legs (unsteady_ring_vortex_lattice_method.py 1001-1008). -/
def leftForces (s : UnsteadySolver) : List V3 :=
  kuttaForces s.operatingPoint.density (s.effective effectiveLeft) s.leftVelocities
    (s.slots.map (·.leftVector))

/-- Unsteady forces (unsteady_ring_vortex_lattice_method.py 1009-1018): density times change of strength times area times normal over the time
step. `last_panel_vortex_strengths` is zero at the first step. -/
def unsteadyForces (s : UnsteadySolver) : List V3 :=
  List.zipWith (fun (slot : RingSlot) (change : ℝ) =>
      (s.operatingPoint.density * change * slot.area / s.deltaTime) • slot.normal) s.slots
    (List.zipWith (· - ·) s.strengths (s.lasts.map (·.strength)))

/-- Panel forces (unsteady_ring_vortex_lattice_method.py 1020-1027). -/
def nearFieldForces (s : UnsteadySolver) : List V3 :=
  addRow (addRow (addRow s.frontForces s.leftForces) s.rightForces) s.unsteadyForces

/-- Panel moments (unsteady_ring_vortex_lattice_method.py 1029-1061). -/
def nearFieldMoments (s : UnsteadySolver) : List V3 :=
  let refs := s.slots.map (·.momentReference)
  addRow (addRow (addRow (momentsAbout (s.slots.map (·.frontCenter)) refs s.frontForces)
    (momentsAbout (s.slots.map (·.leftCenter)) refs s.leftForces))
    (momentsAbout (s.slots.map (·.rightCenter)) refs s.rightForces))
    (momentsAbout (s.slots.map (·.collocation)) refs s.unsteadyForces)

/-- `calculate_near_field_forces_and_moments` (unsteady_ring_vortex_lattice_method.py 855-1067) with `process_unsteady_solver_forces`
(functions.py 399-528). -/
def calculateForces (s : UnsteadySolver) : UnsteadySolver :=
  let r := processForces s.operatingPoint s.airplanes (s.slots.map (·.panel)) s.nearFieldForces
    s.nearFieldMoments (s.panels s.step)
  { s with
    panels := Function.update s.panels s.step r.1
    loads := Function.update s.loads s.step r.2 }

/-! ## Shedding the wake -/

/-- `panels[row, col].ring_vortex` on a wing (an `IndexError` or `AttributeError` in Python if there is none, which
C18 excludes). -/
def wingRing (s : UnsteadySolver) (w : WingRef) (row col : ℕ) : RingVortex :=
  ((s.panels w.step ⟨w.airplane, w.wing, row, col⟩).ring).getD (RingVortex.mk' 0 0 0 0 0)

/-- The new first row of wake vertices (unsteady_ring_vortex_lattice_method.py 1124-1175, 1295-1325): the back-left vertices of the next step's
trailing-edge rings and the back-right vertex of the last of them. `wing` is the current step's wing, whose numbers
of panels are used. -/
def trailingVertices (s : UnsteadySolver) (next : WingRef) (wing : Wing) : List V3 :=
  let n := wing.numSpanwisePanels
  let row := wing.spec.numChordwisePanels - 1
  (List.range (n + 1)).map fun j =>
    if j < n then (s.wingRing next row j).backLeft
    else if 0 < n then (s.wingRing next row (n - 1)).backRight
    else 0

/-- A wake vertex after one time step (unsteady_ring_vortex_lattice_method.py 1196-1221, 1263-1292): it moves with the freestream if the wake is
prescribed, with the solution velocity otherwise. -/
def convect (s : UnsteadySolver) (prescribed : Bool) (p : V3) : V3 :=
  let v := if prescribed then s.freestreamVelocity else (s.solutionVelocity [p]).headD 0
  p + s.deltaTime • v

/-- `next_wing.wake_ring_vortex_vertices` (unsteady_ring_vortex_lattice_method.py 1120-1333), for the next step's counterpart of wing `this`. -/
def nextVertices (s : UnsteadySolver) (prescribed : Bool) (this : WingRef) (wing : Wing) : List (List V3) :=
  let row := s.trailingVertices { this with step := this.step + 1 } wing
  if s.step = 0 then [row, row.map (s.convect prescribed)]
  else row :: (s.vertices this).map fun r => r.map (s.convect prescribed)

/-- One pass of the loop over wings of `populate_next_airplanes_wake_vortex_vertices` (unsteady_ring_vortex_lattice_method.py 1116-1333). -/
def shedVerticesOf (s : UnsteadySolver) (prescribed : Bool) (vertices : WingRef → List (List V3)) (next : WingRef) :
    WingRef → List (List V3) :=
  let this : WingRef := { next with step := s.step }
  match s.problem.wing? this with
  | none => vertices      -- `IndexError` in Python; the steps have the same wings by C31
  | some wing => Function.update vertices next (s.nextVertices prescribed this wing)

/-- `populate_next_airplanes_wake_vortex_vertices` (unsteady_ring_vortex_lattice_method.py 1086-1333). The loop only writes the vertices of the
next step's wings and only reads those of the current step's. -/
def shedVertices (s : UnsteadySolver) (prescribed : Bool) : UnsteadySolver :=
  if s.step + 1 < s.problem.numSteps then
    { s with
      vertices := (wingRefs (s.step + 1) (s.problem.airplanesAt (s.step + 1))).foldl
        (s.shedVerticesOf prescribed) s.vertices }
  else s

/-- `vertices[i, j]` (unsteady_ring_vortex_lattice_method.py 1407-1423). -/
def vertexAt (vertices : List (List V3)) (i j : ℕ) : V3 := (vertices.getD i []).getD j 0

/-- The cells visited by the double loop over vertex positions that have a right and a back neighbour
(unsteady_ring_vortex_lattice_method.py 1389-1401), in order. -/
def wakeCells (vertices : List (List V3)) : List (ℕ × ℕ) :=
  (List.range (vertices.length - 1)).flatMap fun i =>
    (List.range ((vertices.headD []).length - 1)).map fun j => (i, j)

/-- A wake ring object moved to its new vertices and aged (unsteady_ring_vortex_lattice_method.py 1425-1449). -/
def moveRing (s : UnsteadySolver) (vertices : List (List V3)) (i j : ℕ) (v : RingVortex) : RingVortex :=
  { v.updatePosition (vertexAt vertices i j) (vertexAt vertices i (j + 1)) (vertexAt vertices (i + 1) j)
      (vertexAt vertices (i + 1) (j + 1)) with
    age := if s.step = 0 then s.deltaTime else v.age + s.deltaTime }

/-- A new wake ring object (unsteady_ring_vortex_lattice_method.py 1451-1472): strength of the trailing-edge ring in front of it. -/
def newRing (s : UnsteadySolver) (this : WingRef) (wing : Wing) (vertices : List (List V3)) (j : ℕ) : RingVortex :=
  RingVortex.mk' (vertexAt vertices 0 j) (vertexAt vertices 0 (j + 1)) (vertexAt vertices 1 j)
    (vertexAt vertices 1 (j + 1)) (s.wingRing this (wing.spec.numChordwisePanels - 1) j).strength

/-- `array[i, j]` of an object array (unsteady_ring_vortex_lattice_method.py 1429-1432). -/
def refAt (refs : List (List (Option ℕ))) (i j : ℕ) : Option ℕ := ((refs.getD i []).getD j none)

/-- The body of the double loop over vertex positions (unsteady_ring_vortex_lattice_method.py 1401-1472). State: the objects, the number of
objects and the next wing's `wake_ring_vortices`. A `None` met behind the first row is an `AttributeError` in
Python; it does not occur, by C40. -/
def shedCell (s : UnsteadySolver) (this : WingRef) (wing : Wing) (vertices : List (List V3))
    (state : (ℕ → RingVortex) × ℕ × List (List (Option ℕ))) (cell : ℕ × ℕ) :
    (ℕ → RingVortex) × ℕ × List (List (Option ℕ)) :=
  let (objects, allocated, refs) := state
  if cell.1 = 0 then
    (Function.update objects allocated (s.newRing this wing vertices cell.2), allocated + 1,
      refs.modify 0 fun row => row.set cell.2 (some allocated))
  else
    match refAt refs cell.1 cell.2 with
    | none => state
    | some a =>
      (Function.update objects a (s.moveRing vertices cell.1 cell.2 (objects a)), allocated, refs)

/-- One pass of the loop over wings of `populate_next_airplanes_wake_vortices` (unsteady_ring_vortex_lattice_method.py 1350-1472): a row of
`None` is stacked on this wing's array (sharing its ring objects), then every cell is visited. -/
def shedRingsOf (s : UnsteadySolver) (o : UnsteadyObjects) (this : WingRef) : UnsteadyObjects :=
  let next : WingRef := { this with step := s.step + 1 }
  match s.problem.wing? this with
  | none => o
  | some wing =>
    let vertices := o.vertices next
    let stacked := List.replicate ((vertices.headD []).length - 1) none :: o.wakes this
    let r := (wakeCells vertices).foldl (s.shedCell this wing vertices) (o.objects, o.allocated, stacked)
    { o with objects := r.1, allocated := r.2.1, wakes := Function.update o.wakes next r.2.2 }

/-- `populate_next_airplanes_wake_vortices` (unsteady_ring_vortex_lattice_method.py 1335-1472). -/
def shedRings (s : UnsteadySolver) : UnsteadySolver :=
  if s.step + 1 < s.problem.numSteps then
    { s with toUnsteadyObjects := (wingRefs s.step s.airplanes).foldl s.shedRingsOf s.toUnsteadyObjects }
  else s

/-- `populate_next_airplanes_wake` (unsteady_ring_vortex_lattice_method.py 1069-1084). -/
def populateNextWake (s : UnsteadySolver) (prescribed : Bool) : UnsteadySolver :=
  (s.shedVertices prescribed).shedRings

/-- The part of a step before the wake is shed (unsteady_ring_vortex_lattice_method.py 324-460). -/
def solveStep (s : UnsteadySolver) (k : ℕ) : Except Err UnsteadySolver := do
  let s ← (s.beginStep k).collapseGeometry
  let s := s.calculateWingWingInfluences.calculateFreestreamInfluences.calculateWakeInfluences
  let s ← s.calculateVortexStrengths
  pure (if s.problem.firstResultsStep ≤ (k : ℤ) then s.calculateForces else s)

/-- One pass of the time loop of `run` (unsteady_ring_vortex_lattice_method.py 324-468). -/
def runStep (prescribed : Bool) (s : UnsteadySolver) (k : ℕ) : Except Err UnsteadySolver := do
  let s ← s.solveStep k
  pure (s.populateNextWake prescribed)

/-! ## After the steps -/

/-- `range(first_averaging_step, num_steps)` (unsteady_ring_vortex_lattice_method.py 1621); the first averaging step is not negative when there
are steps, by C32. -/
def averagingSteps (s : UnsteadySolver) : List ℕ :=
  (List.range s.problem.numSteps).drop s.problem.firstAveragingStep.toNat

/-- The history of one quantity of airplane `i` over the averaging steps (unsteady_ring_vortex_lattice_method.py 1621-1641). Loads that were not
computed are read as zero here (`nan` in Python); C32 excludes them. -/
def history (s : UnsteadySolver) (f : AirplaneLoads → V3) (i : ℕ) : List V3 :=
  s.averagingSteps.map fun k => (((s.loads k)[i]?).map f).getD 0

/-- `np.mean(..., axis=-1)` of a history. -/
def meanOf (h : List V3) : V3 := ⟨mean (h.map (·.x)), mean (h.map (·.y)), mean (h.map (·.z))⟩
/-- `np.sqrt(np.mean(np.square(...), axis=-1))` of a history. -/
def rmsOf (h : List V3) : V3 :=
  ⟨Real.sqrt (mean (h.map fun v => v.x ^ 2)), Real.sqrt (mean (h.map fun v => v.y ^ 2)),
   Real.sqrt (mean (h.map fun v => v.z ^ 2))⟩

/-- Appending one airplane's results, obtained from its histories by `f`, to the result lists
(unsteady_ring_vortex_lattice_method.py 1645-1659, 1703-1727). -/
def appendResults (s : UnsteadySolver) (f : List V3 → V3) (lists : ResultLists) (i : ℕ) : ResultLists :=
  { forces := lists.forces ++ [f (s.history (·.forceWind) i)]
    forceCoefficients := lists.forceCoefficients ++ [f (s.history (·.forceCoefficients) i)]
    moments := lists.moments ++ [f (s.history (·.momentWind) i)]
    momentCoefficients := lists.momentCoefficients ++ [f (s.history (·.momentCoefficients) i)] }

open Classical in
/-- `finalize_near_field_forces_and_moments` (unsteady_ring_vortex_lattice_method.py 1586-1727). -/
def finalize (s : UnsteadySolver) : UnsteadySolver :=
  let indices := List.range (s.problem.airplanesAt 0).length
  if s.problem.maxPeriod = 0 then
    { s with final := indices.foldl (s.appendResults fun h => h.getLastD 0) s.final }
  else
    { s with
      finalMean := indices.foldl (s.appendResults meanOf) s.finalMean
      finalRms := indices.foldl (s.appendResults rmsOf) s.finalRms }

/-- `calculate_streamlines(self)` (functions.py 200-244). -/
def calculateStreamlines (s : UnsteadySolver) : UnsteadySolver :=
  { s with
    streamlines := some (Ptera.calculateStreamlines (fun p => (s.solutionVelocity [p]).headD 0) s.seedPoints) }

/-- `run` (unsteady_ring_vortex_lattice_method.py 180-476), with a valid logging level (C55). The progress bar
(unsteady_ring_vortex_lattice_method.py 273-321, 468) is in `Model/Progress.lean`. -/
def run (s : UnsteadySolver) (prescribed : Bool := true) (streamlines : Bool := true) :
    Except Err UnsteadySolver := do
  let s ← (List.range s.problem.numSteps).foldlM (runStep prescribed) s.preallocate.initializePanelVortices
  let s := s.finalize
  pure (if streamlines then s.calculateStreamlines else s)

end UnsteadySolver

end

end Ptera
