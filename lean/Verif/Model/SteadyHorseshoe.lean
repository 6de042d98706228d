import Verif.Model.Solver

/-!
# Model of `pterasoftware/steady_horseshoe_vortex_lattice_method.py`
-/

namespace Ptera

noncomputable section

/-- One position of the flattened arrays (steady_horseshoe_vortex_lattice_method.py 81-98): the parallel arrays, always written at the
same index, are one array of records. -/
structure HorseshoeSlot where
  panel : PanelRef := ⟨0, 0, 0, 0⟩
  normal : V3 := 0
  area : ℝ := 0
  collocation : V3 := 0
  backRight : V3 := 0
  frontRight : V3 := 0
  frontLeft : V3 := 0
  backLeft : V3 := 0
  boundCenter : V3 := 0
  boundVector : V3 := 0
  momentReference : V3 := 0

/-- The attributes of `SteadyHorseshoeVortexLatticeMethodSolver` (steady_horseshoe_vortex_lattice_method.py 60-98), together with the
mutable attributes of the panels (`heap`) and of the airplanes (`loads`) it works on. The unused array
`panel_vortex_strengths` is left out. -/
structure HorseshoeSolver where
  airplanes : List Airplane
  operatingPoint : OperatingPoint
  freestreamVelocity : V3
  slots : List HorseshoeSlot
  seedPoints : List V3
  influences : List (List ℝ)
  freestream : List ℝ
  strengths : List ℝ
  streamlines : Option (List (List V3))
  heap : PanelHeap
  loads : List AirplaneLoads

namespace HorseshoeSolver

/-- `__init__` (steady_horseshoe_vortex_lattice_method.py 60-98), given the current attributes of the problem's panels. -/
def create (problem : SteadyProblem) (heap : PanelHeap := PanelHeap.fresh) (loads : List AirplaneLoads := []) :
    HorseshoeSolver :=
  let n := totalPanels problem.airplanes
  { airplanes := problem.airplanes
    operatingPoint := problem.operatingPoint
    freestreamVelocity := problem.operatingPoint.freestreamVelocity
    slots := List.replicate n {}
    seedPoints := []
    influences := List.replicate n (List.replicate n 0)
    freestream := List.replicate n 0
    strengths := List.replicate n 0
    streamlines := none
    heap, loads }

/-- The vortex given to a panel by `initialize_panel_vortices` (steady_horseshoe_vortex_lattice_method.py 159-191). The strength is `None`
there and is overwritten before it is read; it is zero here. -/
def panelVortex (s : HorseshoeSolver) (r : PanelRef) : HorseshoeVortex :=
  let p := geometryOf s.airplanes r
  HorseshoeVortex.mk' p.frontRightVortexVertex p.frontLeftVortexVertex 0
    s.operatingPoint.freestreamDirection (((wingAt s.airplanes r).map (·.span)).getD 0 * 20)

/-- `initialize_panel_vortices` (steady_horseshoe_vortex_lattice_method.py 149-191). -/
def initializePanelVortices (s : HorseshoeSolver) : HorseshoeSolver :=
  { s with
    heap := (panelRefs s.airplanes).foldl
      (fun heap r => Function.update heap r { heap r with horseshoe := some (s.panelVortex r) }) s.heap }

/-- The record written for one panel (steady_horseshoe_vortex_lattice_method.py 213-242). -/
def slotOf (airplanes : List Airplane) (r : PanelRef) (v : HorseshoeVortex) : HorseshoeSlot :=
  let p := geometryOf airplanes r
  { panel := r
    normal := p.unitNormal
    area := p.area
    collocation := p.collocationPoint
    backRight := v.rightLeg.origin
    frontRight := v.rightLeg.termination
    frontLeft := v.leftLeg.origin
    backLeft := v.leftLeg.termination
    boundCenter := v.finiteLeg.center
    boundVector := v.finiteLeg.vector
    momentReference := (airplanes[r.airplane]?.map (·.xyzRef)).getD 0 }

/-- One pass of the panel loop of `collapse_geometry` (steady_horseshoe_vortex_lattice_method.py 211-259); the state is the solver and
`global_panel_position`. A panel without a horseshoe vortex is an `AttributeError`. -/
def collapsePanel (state : HorseshoeSolver × ℕ) (r : PanelRef) : Except Err (HorseshoeSolver × ℕ) :=
  let s := state.1
  match (s.heap r).horseshoe with
  | none => .error .attributeError
  | some v => do
    let slots ← writeAt s.slots state.2 (slotOf s.airplanes r v)
    let p := geometryOf s.airplanes r
    let seeds := if p.isTrailingEdge then s.seedPoints ++ [seedPoint p] else s.seedPoints
    pure ({ s with slots := slots, seedPoints := seeds }, state.2 + 1)

/-- `collapse_geometry` (steady_horseshoe_vortex_lattice_method.py 193-259). -/
def collapseGeometry (s : HorseshoeSolver) : Except Err HorseshoeSolver := do
  let r ← (panelRefs s.airplanes).foldlM collapsePanel (s, 0)
  pure r.1

/-- `calculate_wing_wing_influences` (steady_horseshoe_vortex_lattice_method.py 261-285). -/
def calculateWingWingInfluences (s : HorseshoeSolver) : HorseshoeSolver :=
  let induced := expandedHorseshoe (s.slots.map (·.collocation)) (s.slots.map (·.backRight))
    (s.slots.map (·.frontRight)) (s.slots.map (·.frontLeft)) (s.slots.map (·.backLeft))
    (List.replicate (totalPanels s.airplanes) 1)
  { s with influences := normalComponents induced (s.slots.map (·.normal)) }

/-- `calculate_steady_freestream_wing_influences` (functions.py 610-623) on this solver. -/
def calculateFreestreamInfluences (s : HorseshoeSolver) : HorseshoeSolver :=
  { s with freestream := freestreamInfluences s.freestreamVelocity (s.slots.map (·.normal)) }

/-- `calculate_vortex_strengths` (steady_horseshoe_vortex_lattice_method.py 287-300). -/
def calculateVortexStrengths (s : HorseshoeSolver) : Except Err HorseshoeSolver := do
  let strengths ← linalgSolve s.influences (s.freestream.map fun x => -x)
  pure { s with
    strengths := strengths
    heap := s.slots.zipIdx.foldl
      (fun heap t => Function.update heap t.1.panel
        { heap t.1.panel with
          horseshoe := (heap t.1.panel).horseshoe.map fun v => v.updateStrength (strengths.getD t.2 0) })
      s.heap }

/-- `calculate_solution_velocity` (steady_horseshoe_vortex_lattice_method.py 302-333). -/
def solutionVelocity (s : HorseshoeSolver) (points : List V3) : List V3 :=
  (collapsedHorseshoe points (s.slots.map (·.backRight)) (s.slots.map (·.frontRight))
    (s.slots.map (·.frontLeft)) (s.slots.map (·.backLeft)) s.strengths).map fun v => v + s.freestreamVelocity

/-- The forces of `calculate_near_field_forces_and_moments` (steady_horseshoe_vortex_lattice_method.py 344-355). -/
def nearFieldForces (s : HorseshoeSolver) : List V3 :=
  kuttaForces s.operatingPoint.density s.strengths (s.solutionVelocity (s.slots.map (·.boundCenter)))
    (s.slots.map (·.boundVector))

/-- The moments of `calculate_near_field_forces_and_moments` (steady_horseshoe_vortex_lattice_method.py 357-363). -/
def nearFieldMoments (s : HorseshoeSolver) : List V3 :=
  momentsAbout (s.slots.map (·.boundCenter)) (s.slots.map (·.momentReference)) s.nearFieldForces

/-- `calculate_near_field_forces_and_moments` (steady_horseshoe_vortex_lattice_method.py 335-369). -/
def calculateForces (s : HorseshoeSolver) : HorseshoeSolver :=
  let r := processForces s.operatingPoint s.airplanes (s.slots.map (·.panel)) s.nearFieldForces
    s.nearFieldMoments s.heap
  { s with heap := r.1, loads := r.2 }

/-- `calculate_streamlines(self)` (functions.py 200-244): `calculate_solution_velocity` acts point by point
(`HorseshoeSolver.velocity_eq`). -/
def calculateStreamlines (s : HorseshoeSolver) : HorseshoeSolver :=
  { s with streamlines := some (Ptera.calculateStreamlines (fun p => (s.solutionVelocity [p]).headD 0) s.seedPoints) }

/-- `run` (steady_horseshoe_vortex_lattice_method.py 100-147), with a valid logging level (C55). -/
def run (s : HorseshoeSolver) : Except Err HorseshoeSolver := do
  let s ← s.initializePanelVortices.collapseGeometry
  let s := s.calculateWingWingInfluences.calculateFreestreamInfluences
  let s ← s.calculateVortexStrengths
  pure s.calculateForces.calculateStreamlines

end HorseshoeSolver

end

end Ptera
