import Verif.Core.Py
import Verif.Core.Vec
import Verif.Model.Aerodynamics
import Verif.Model.Airfoil
import Verif.Model.AirfoilName
import Verif.Model.Convergence
import Verif.Model.Functions
import Verif.Model.Geometry
import Verif.Model.Gui
import Verif.Model.Movement
import Verif.Model.OperatingPoint
import Verif.Model.Operations
import Verif.Model.Output
import Verif.Model.Panel
import Verif.Model.PanelVelocity
import Verif.Model.Pchip
import Verif.Model.Progress
import Verif.Model.SharedAirplanes
import Verif.Model.SharedMovement
import Verif.Model.SharedSections
import Verif.Model.Solver
import Verif.Model.SteadyHorseshoe
import Verif.Model.SteadyRing
import Verif.Model.Trim
import Verif.Model.Unsteady
import Verif.Lemmas.AbortedSteady
import Verif.Lemmas.Aero
import Verif.Lemmas.AirfoilLemmas
import Verif.Lemmas.Causal
import Verif.Lemmas.ConvergenceLemmas
import Verif.Lemmas.EqualPanels
import Verif.Lemmas.FarApart
import Verif.Lemmas.FarApartLimit
import Verif.Lemmas.FarApartLoads
import Verif.Lemmas.FarApartSteps
import Verif.Lemmas.FarApartUnsteady
import Verif.Lemmas.Faster
import Verif.Lemmas.FasterStudy
import Verif.Lemmas.Filaments
import Verif.Lemmas.FinalLoads
import Verif.Lemmas.Finals
import Verif.Lemmas.FlatPanels
import Verif.Lemmas.FlatPlate
import Verif.Lemmas.FlowField
import Verif.Lemmas.FreshRing
import Verif.Lemmas.FreshRun
import Verif.Lemmas.FullWing
import Verif.Lemmas.GeneratedAirplanes
import Verif.Lemmas.HorseshoeRun
import Verif.Lemmas.InvertedAirfoil
import Verif.Lemmas.InvertedMotion
import Verif.Lemmas.InvertedWing
import Verif.Lemmas.Limits
import Verif.Lemmas.LinearSystem
import Verif.Lemmas.Lists
import Verif.Lemmas.Loads
import Verif.Lemmas.MadePanels
import Verif.Lemmas.MapM
import Verif.Lemmas.Mesh
import Verif.Lemmas.MeshAssembly
import Verif.Lemmas.MeshCells
import Verif.Lemmas.MirroredRuns
import Verif.Lemmas.Motion
import Verif.Lemmas.MovedWing
import Verif.Lemmas.Nearby
import Verif.Lemmas.NearbyFlaps
import Verif.Lemmas.NearbyMovements
import Verif.Lemmas.NearbyUnsteady
import Verif.Lemmas.NearbyWings
import Verif.Lemmas.NoPenetration
import Verif.Lemmas.Operations
import Verif.Lemmas.OutputLemmas
import Verif.Lemmas.OutputRuns
import Verif.Lemmas.Overlap
import Verif.Lemmas.ParallelFlow
import Verif.Lemmas.Pchip
import Verif.Lemmas.PlatePair
import Verif.Lemmas.PlatePairLoads
import Verif.Lemmas.PlateRun
import Verif.Lemmas.PlateSolve
import Verif.Lemmas.PlateSymmetric
import Verif.Lemmas.PlateUnsteady
import Verif.Lemmas.Prefix
import Verif.Lemmas.Progress
import Verif.Lemmas.Regrouped
import Verif.Lemmas.RegroupedStudy
import Verif.Lemmas.Remesh
import Verif.Lemmas.Reordered
import Verif.Lemmas.Repeats
import Verif.Lemmas.RingRun
import Verif.Lemmas.Rotations
import Verif.Lemmas.SameLattice
import Verif.Lemmas.ScaledRuns
import Verif.Lemmas.ScaledStudy
import Verif.Lemmas.ScaledTiny
import Verif.Lemmas.ScaledUnsteady
import Verif.Lemmas.ScaledUnsteadyCut
import Verif.Lemmas.ScaledUnsteadyLoads
import Verif.Lemmas.ScaledWing
import Verif.Lemmas.SharedSections
import Verif.Lemmas.Shedding
import Verif.Lemmas.Shifted
import Verif.Lemmas.Similar
import Verif.Lemmas.SimilarRuns
import Verif.Lemmas.SimilarSolve
import Verif.Lemmas.SimilarTotals
import Verif.Lemmas.SolveAll
import Verif.Lemmas.SolverLemmas
import Verif.Lemmas.Split
import Verif.Lemmas.SteadyFormulas
import Verif.Lemmas.SteadyRuns
import Verif.Lemmas.SteadyVelocity
import Verif.Lemmas.Studies
import Verif.Lemmas.SymmetricMotion
import Verif.Lemmas.Translated
import Verif.Lemmas.TrimLemmas
import Verif.Lemmas.TwoPanels
import Verif.Lemmas.TwoPanelsUnsteady
import Verif.Lemmas.UnsetSteady
import Verif.Lemmas.UnsetUnsteady
import Verif.Lemmas.UnsteadyAgree
import Verif.Lemmas.UnsteadyConvergence
import Verif.Lemmas.UnsteadyFlow
import Verif.Lemmas.UnsteadyForces
import Verif.Lemmas.UnsteadyImages
import Verif.Lemmas.UnsteadyInduct
import Verif.Lemmas.UnsteadyInv
import Verif.Lemmas.UnsteadyLattice
import Verif.Lemmas.UnsteadyLayout
import Verif.Lemmas.UnsteadySimilar
import Verif.Lemmas.UnsteadyStep
import Verif.Lemmas.UnsteadyTotals
import Verif.Lemmas.UnsteadyTrace
import Verif.Lemmas.UpsideDown
import Verif.Lemmas.WakeRecords
import Verif.Lemmas.WellPosed
import Verif.Props.Aborted
import Verif.Props.AbortedSteady
import Verif.Props.AirfoilNames
import Verif.Props.Animations
import Verif.Props.Attitude
import Verif.Props.BiotSavart
import Verif.Props.CamberLine
import Verif.Props.CamberThickness
import Verif.Props.Chords
import Verif.Props.Construction
import Verif.Props.ControlSurface
import Verif.Props.Convergence
import Verif.Props.Counts
import Verif.Props.Drawing
import Verif.Props.Examples
import Verif.Props.FarApart
import Verif.Props.FarApartUnsteady
import Verif.Props.Faster
import Verif.Props.FinalLoads
import Verif.Props.FinalReferences
import Verif.Props.Finals
import Verif.Props.Flapping
import Verif.Props.FlatPanels
import Verif.Props.FlowField
import Verif.Props.Frames
import Verif.Props.FullWing
import Verif.Props.Gui
import Verif.Props.Iterations
import Verif.Props.LengthUnits
import Verif.Props.Loads
import Verif.Props.Loft
import Verif.Props.MaxPeriod
import Verif.Props.Mesh
import Verif.Props.MirrorRuns
import Verif.Props.Motion
import Verif.Props.Naca
import Verif.Props.Nearby
import Verif.Props.NearbyMovements
import Verif.Props.NearbyUnsteady
import Verif.Props.NearbyWings
import Verif.Props.OnlyFinal
import Verif.Props.Order
import Verif.Props.Oscillation
import Verif.Props.Output
import Verif.Props.Overlap
import Verif.Props.PanelGeometry
import Verif.Props.PanelVelocity
import Verif.Props.ParallelFlow
import Verif.Props.Pchip
import Verif.Props.Planform
import Verif.Props.Playback
import Verif.Props.Progress
import Verif.Props.References
import Verif.Props.Regrouped
import Verif.Props.Remesh
import Verif.Props.Repaneled
import Verif.Props.Repeats
import Verif.Props.Reports
import Verif.Props.RingLattice
import Verif.Props.Scaling
import Verif.Props.SharedAirplanes
import Verif.Props.SharedFilaments
import Verif.Props.SharedFilamentsUnsteady
import Verif.Props.SharedMovement
import Verif.Props.SharedSections
import Verif.Props.Spacing
import Verif.Props.Split
import Verif.Props.StaticMotion
import Verif.Props.SteadyFlow
import Verif.Props.SteadyLoads
import Verif.Props.SteadyRuns
import Verif.Props.StepAccess
import Verif.Props.Streamlines
import Verif.Props.Texts
import Verif.Props.Trim
import Verif.Props.TrimExample
import Verif.Props.Unset
import Verif.Props.UnsteadyCausal
import Verif.Props.UnsteadyExample
import Verif.Props.UnsteadyFlow
import Verif.Props.UnsteadyLoads
import Verif.Props.UnsteadyMirror
import Verif.Props.UnsteadyOrder
import Verif.Props.UnsteadyReruns
import Verif.Props.UnsteadyUnits
import Verif.Props.UnsteadyVariations
import Verif.Props.UpsideDown
import Verif.Props.ViscousCore
import Verif.Props.Vortex
import Verif.Props.VortexObjects
import Verif.Props.Wake
import Verif.Props.Watertight
import Verif.Props.WellPosed
import Verif.Props.WingFrames
import Verif.Spec.Aborted
import Verif.Spec.AbortedSteady
import Verif.Spec.Causal
import Verif.Spec.Convergence
import Verif.Spec.FarApart
import Verif.Spec.FarApartUnsteady
import Verif.Spec.Faster
import Verif.Spec.Finals
import Verif.Spec.FlowField
import Verif.Spec.FullWing
import Verif.Spec.Gui
import Verif.Spec.Lattice
import Verif.Spec.Loft
import Verif.Spec.Made
import Verif.Spec.Mirror
import Verif.Spec.Moved
import Verif.Spec.Nearby
import Verif.Spec.NearbyMovements
import Verif.Spec.NearbyUnsteady
import Verif.Spec.NearbyWings
import Verif.Spec.Output
import Verif.Spec.Overlap
import Verif.Spec.PanelVelocity
import Verif.Spec.Progress
import Verif.Spec.Regrouped
import Verif.Spec.Remesh
import Verif.Spec.Renumbered
import Verif.Spec.Reordered
import Verif.Spec.Repeats
import Verif.Spec.Scaled
import Verif.Spec.ScaledUnsteady
import Verif.Spec.SharedAirplanes
import Verif.Spec.SharedMovement
import Verif.Spec.SharedSections
import Verif.Spec.Similar
import Verif.Spec.Split
import Verif.Spec.SteadyResults
import Verif.Spec.Streamlines
import Verif.Spec.Studies
import Verif.Spec.SymmetricMotion
import Verif.Spec.Trim
import Verif.Spec.Unset
import Verif.Spec.Unsteady
import Verif.Spec.UpsideDown
import Verif.Spec.Waves
import Verif.Spec.WellPosed
