import Verif.Model.Solver

/-!
# Model of `pterasoftware/steady_ring_vortex_lattice_method.py`
-/

namespace Ptera

noncomputable section

/-- One position of the flattened horseshoe arrays (steady_ring_vortex_lattice_method.py 105-115). -/
structure TrailingSlot where
  backRight : V3 := 0
  frontRight : V3 := 0
  frontLeft : V3 := 0
  backLeft : V3 := 0
  strength : ℝ := 0

/-- The attributes of `SteadyRingVortexLatticeMethodSolver` (steady_ring_vortex_lattice_method.py 62-122), together with the mutable
attributes of the panels (`heap`) and of the airplanes (`loads`) it works on. -/
structure RingSolver where
  airplanes : List Airplane
  operatingPoint : OperatingPoint
  freestreamVelocity : V3
  slots : List RingSlot
  trailing : List TrailingSlot
  seedPoints : List V3
  influences : List (List ℝ)
  freestream : List ℝ
  strengths : List ℝ
  streamlines : Option (List (List V3))
  heap : PanelHeap
  loads : List AirplaneLoads

namespace RingSolver

/-- `__init__` (steady_ring_vortex_lattice_method.py 62-122), given the current attributes of the problem's panels. -/
def create (problem : SteadyProblem) (heap : PanelHeap := PanelHeap.fresh) (loads : List AirplaneLoads := []) :
    RingSolver :=
  let n := totalPanels problem.airplanes
  { airplanes := problem.airplanes
    operatingPoint := problem.operatingPoint
    freestreamVelocity := problem.operatingPoint.freestreamVelocity
    slots := List.replicate n {}
    trailing := List.replicate n {}
    seedPoints := []
    influences := List.replicate n (List.replicate n 0)
    freestream := List.replicate n 0
    strengths := List.replicate n 1
    streamlines := none
    heap, loads }

/-- The back-left vertex of a panel's ring (steady_ring_vortex_lattice_method.py 218-236): on a panel that is not at the trailing edge, the
front-left vortex vertex of the next panel of the same column (`IndexError` if there is none, which C19 excludes).
-/
def backLeftVertex (airplanes : List Airplane) (r : PanelRef) : V3 :=
  let p := geometryOf airplanes r
  if p.isTrailingEdge then p.frontLeftVortexVertex + (p.backLeft - p.frontLeft)
  else (geometryOf airplanes { r with row := r.row + 1 }).frontLeftVortexVertex

/-- The back-right vertex of a panel's ring (steady_ring_vortex_lattice_method.py 218-236). -/
def backRightVertex (airplanes : List Airplane) (r : PanelRef) : V3 :=
  let p := geometryOf airplanes r
  if p.isTrailingEdge then p.frontRightVortexVertex + (p.backRight - p.frontRight)
  else (geometryOf airplanes { r with row := r.row + 1 }).frontRightVortexVertex

/-- The ring vortex given to a panel by `initialize_panel_vortices` (steady_ring_vortex_lattice_method.py 248-255). The strength is `None`
there and is overwritten before it is read; it is zero here. -/
def panelRing (airplanes : List Airplane) (r : PanelRef) : RingVortex :=
  let p := geometryOf airplanes r
  RingVortex.mk' p.frontLeftVortexVertex p.frontRightVortexVertex (backLeftVertex airplanes r)
    (backRightVertex airplanes r) 0

/-- The horseshoe vortex given to a trailing-edge panel (steady_ring_vortex_lattice_method.py 238-246). -/
def panelHorseshoe (s : RingSolver) (r : PanelRef) : HorseshoeVortex :=
  HorseshoeVortex.mk' (backRightVertex s.airplanes r) (backLeftVertex s.airplanes r) 0
    s.operatingPoint.freestreamDirection (((wingAt s.airplanes r).map (·.span)).getD 0 * 20)

/-- `initialize_panel_vortices` (steady_ring_vortex_lattice_method.py 171-255). A horseshoe vortex another solver left on a panel that is
not at the trailing edge stays there. -/
def initializePanelVortices (s : RingSolver) : RingSolver :=
  { s with
    heap := (panelRefs s.airplanes).foldl
      (fun heap r => Function.update heap r
        { heap r with
          ring := some (panelRing s.airplanes r)
          horseshoe := if (geometryOf s.airplanes r).isTrailingEdge then some (s.panelHorseshoe r)
            else (heap r).horseshoe }) s.heap }

/-- The horseshoe arrays at one trailing-edge position (steady_ring_vortex_lattice_method.py 287-306). -/
def trailingSlot (v : HorseshoeVortex) : TrailingSlot :=
  { backRight := v.rightLeg.origin
    frontRight := v.rightLeg.termination
    frontLeft := v.leftLeg.origin
    backLeft := v.leftLeg.termination
    strength := 1 }

/-- The horseshoe part of one pass of `collapse_geometry` (steady_ring_vortex_lattice_method.py 286-306). -/
def collapseTrailing (s : RingSolver) (g : ℕ) (r : PanelRef) : Except Err (List TrailingSlot) :=
  if (geometryOf s.airplanes r).isTrailingEdge then
    match (s.heap r).horseshoe with
    | none => .error .attributeError
    | some v => writeAt s.trailing g (trailingSlot v)
  else .ok s.trailing

/-- One pass of the panel loop of `collapse_geometry` (steady_ring_vortex_lattice_method.py 275-309); the state is the solver and
`global_panel_position`. A panel without a ring vortex is an `AttributeError`. -/
def collapsePanel (state : RingSolver × ℕ) (r : PanelRef) : Except Err (RingSolver × ℕ) :=
  let s := state.1
  match (s.heap r).ring with
  | none => .error .attributeError
  | some v => do
    let slots ← writeAt s.slots state.2 (ringSlot s.airplanes r v)
    let p := geometryOf s.airplanes r
    let seeds := if p.isTrailingEdge then s.seedPoints ++ [seedPoint p] else s.seedPoints
    let trailing ← collapseTrailing s state.2 r
    pure ({ s with slots := slots, seedPoints := seeds, trailing := trailing }, state.2 + 1)

/-- `collapse_geometry` (steady_ring_vortex_lattice_method.py 257-309). -/
def collapseGeometry (s : RingSolver) : Except Err RingSolver := do
  let r ← (panelRefs s.airplanes).foldlM collapsePanel (s, 0)
  pure r.1

/-- `calculate_wing_wing_influences` (steady_ring_vortex_lattice_method.py 311-359). Note `strengths=self.vortex_strengths`, which are ones
only before the first solve. -/
def calculateWingWingInfluences (s : RingSolver) : RingSolver :=
  let points := s.slots.map (·.collocation)
  let ring := expandedRing points (s.slots.map (·.backRight)) (s.slots.map (·.frontRight))
    (s.slots.map (·.frontLeft)) (s.slots.map (·.backLeft)) s.strengths
  let horseshoe := expandedHorseshoe points (s.trailing.map (·.backRight)) (s.trailing.map (·.frontRight))
    (s.trailing.map (·.frontLeft)) (s.trailing.map (·.backLeft)) (s.trailing.map (·.strength))
  { s with influences := normalComponents (addGrid ring horseshoe) (s.slots.map (·.normal)) }

/-- `calculate_steady_freestream_wing_influences` (functions.py 610-623) on this solver. -/
def calculateFreestreamInfluences (s : RingSolver) : RingSolver :=
  { s with freestream := freestreamInfluences s.freestreamVelocity (s.slots.map (·.normal)) }

/-- One pass of the loop writing strengths back (steady_ring_vortex_lattice_method.py 370-386): heap and `horseshoe_vortex_strengths`. -/
def storeStrength (strengths : List ℝ) (state : PanelHeap × List TrailingSlot) (t : RingSlot × ℕ) :
    PanelHeap × List TrailingSlot :=
  let x := strengths.getD t.2 0
  let panel := state.1 t.1.panel
  (Function.update state.1 t.1.panel
    { panel with
      ring := panel.ring.map fun v => v.updateStrength x
      horseshoe := panel.horseshoe.map fun v => v.updateStrength x },
   if panel.horseshoe.isSome then state.2.modify t.2 (fun h => { h with strength := x }) else state.2)

/-- `calculate_vortex_strengths` (steady_ring_vortex_lattice_method.py 361-386). -/
def calculateVortexStrengths (s : RingSolver) : Except Err RingSolver := do
  let strengths ← linalgSolve s.influences (s.freestream.map fun x => -x)
  let r := s.slots.zipIdx.foldl (storeStrength strengths) (s.heap, s.trailing)
  pure { s with strengths := strengths, heap := r.1, trailing := r.2 }

/-- `calculate_solution_velocity` (steady_ring_vortex_lattice_method.py 388-444). -/
def solutionVelocity (s : RingSolver) (points : List V3) : List V3 :=
  let ring := collapsedRing points (s.slots.map (·.backRight)) (s.slots.map (·.frontRight))
    (s.slots.map (·.frontLeft)) (s.slots.map (·.backLeft)) s.strengths
  let horseshoe := collapsedHorseshoe points (s.trailing.map (·.backRight)) (s.trailing.map (·.frontRight))
    (s.trailing.map (·.frontLeft)) (s.trailing.map (·.backLeft)) (s.trailing.map (·.strength))
  (addRow ring horseshoe).map fun v => v + s.freestreamVelocity

/-- The three arrays of effective strengths (steady_ring_vortex_lattice_method.py 459-555): written at consecutive positions while the
panels are visited in the order of `panelRefs`. -/
def effective (f : List Airplane → PanelHeap → ℝ → PanelRef → ℝ) (s : RingSolver) : List ℝ :=
  (panelRefs s.airplanes).zipIdx.map fun r => f s.airplanes s.heap (s.strengths.getD r.2 0) r.1

/-- Forces on the right legs (steady_ring_vortex_lattice_method.py 572-580). -/
def rightForces (s : RingSolver) : List V3 :=
  kuttaForces s.operatingPoint.density (s.effective effectiveRight)
    (s.solutionVelocity (s.slots.map (·.rightCenter))) (s.slots.map (·.rightVector))
/-- Forces on the front legs (steady_ring_vortex_lattice_method.py 581-589). -/
def frontForces (s : RingSolver) : List V3 :=
  kuttaForces s.operatingPoint.density (s.effective effectiveFront)
    (s.solutionVelocity (s.slots.map (·.frontCenter))) (s.slots.map (·.frontVector))
/-- Forces on the left legs (steady_ring_vortex_lattice_method.py 590-598). -/
def leftForces (s : RingSolver) : List V3 :=
  kuttaForces s.operatingPoint.density (s.effective effectiveLeft)
    (s.solutionVelocity (s.slots.map (·.leftCenter))) (s.slots.map (·.leftVector))

/-- Panel forces (steady_ring_vortex_lattice_method.py 600-606). -/
def nearFieldForces (s : RingSolver) : List V3 := addRow (addRow s.frontForces s.leftForces) s.rightForces

/-- Panel moments (steady_ring_vortex_lattice_method.py 608-632). -/
def nearFieldMoments (s : RingSolver) : List V3 :=
  let refs := s.slots.map (·.momentReference)
  addRow (addRow (momentsAbout (s.slots.map (·.frontCenter)) refs s.frontForces)
    (momentsAbout (s.slots.map (·.leftCenter)) refs s.leftForces))
    (momentsAbout (s.slots.map (·.rightCenter)) refs s.rightForces)

/-- `calculate_near_field_forces_and_moments` (steady_ring_vortex_lattice_method.py 446-638). -/
def calculateForces (s : RingSolver) : RingSolver :=
  let r := processForces s.operatingPoint s.airplanes (s.slots.map (·.panel)) s.nearFieldForces
    s.nearFieldMoments s.heap
  { s with heap := r.1, loads := r.2 }

/-- `calculate_streamlines(self)` (functions.py 200-244): `calculate_solution_velocity` acts point by point
(`RingSolver.velocity_eq`). -/
def calculateStreamlines (s : RingSolver) : RingSolver :=
  { s with streamlines := some (Ptera.calculateStreamlines (fun p => (s.solutionVelocity [p]).headD 0) s.seedPoints) }

/-- `run` (steady_ring_vortex_lattice_method.py 124-169), with a valid logging level (C55). -/
def run (s : RingSolver) : Except Err RingSolver := do
  let s ← s.initializePanelVortices.collapseGeometry
  let s := s.calculateWingWingInfluences.calculateFreestreamInfluences
  let s ← s.calculateVortexStrengths
  pure s.calculateForces.calculateStreamlines

end RingSolver

end

end Ptera
