import Verif.Model.Convergence

/-!
# The data shown by output.py

The numbers, meshes and colour limits that `output.py` prints or hands to pyvista and matplotlib. Rendering, fonts,
window handling and file formats are not modelled.
-/

namespace Ptera

noncomputable section

/-- `round(x, digits)` (output.py 188-189, 405-406), `np.round(x, digits)` (output.py 894-1093). -/
def roundTo (digits : ℕ) (x : ℝ) : ℝ := (pyRound (x * 10 ^ digits) : ℝ) / 10 ^ digits

/-! ## Surfaces -/

/-- `pv.PolyData(vertices, faces)` (output.py 1156, 1233): `faces` is the flat array `[n, i₁, …, iₙ, n, …]`. -/
structure PolyData where
  vertices : List V3 := []
  faces : List ℕ := []

/-- One pass of the inner loops of `get_panel_surfaces` (output.py 1129-1153) and `get_wake_ring_vortex_surfaces`
(output.py 1189-1230): four vertices and a face are stacked; the counter is returned increased. -/
def PolyData.add (s : PolyData × ℕ) (v1 v2 v3 v4 : V3) : PolyData × ℕ :=
  (⟨s.1.vertices ++ [v1, v2, v3, v4], s.1.faces ++ [4, s.2 * 4, s.2 * 4 + 1, s.2 * 4 + 2, s.2 * 4 + 3]⟩, s.2 + 1)

/-- `get_panel_surfaces` (output.py 1101-1156). -/
def panelSurfaces (airplanes : List Airplane) : PolyData :=
  (airplanes.foldl (fun s a => a.wings.foldl (fun s w => w.panels.flatten.foldl
    (fun s p => PolyData.add s p.frontLeft p.frontRight p.backRight p.backLeft) s) s)
    (({}, 0) : PolyData × ℕ)).1

/-- One pass of the loop of `get_wake_ring_vortex_surfaces` (output.py 1189-1230). -/
def wakeSurfacePass (slots : List WakeSlot) (s : PolyData × ℕ) (n : ℕ) : Except Err (PolyData × ℕ) :=
  match slots[n]? with
  | none => .error .indexError
  | some v => .ok ((PolyData.add (s.1, n) v.frontLeft v.frontRight v.backRight v.backLeft).1, n + 1)

/-- `get_wake_ring_vortex_surfaces` (output.py 1159-1233); `counts` and `arrays` are the solver's lists of wake ring
counts and of wake ring arrays. -/
def wakeSurfaces (counts : List ℕ) (arrays : List (List WakeSlot)) (step : ℕ) : Except Err PolyData := do
  let count ← (counts[step]?).elim (.error .indexError) .ok
  let slots ← (arrays[step]?).elim (.error .indexError) .ok
  let s ← (List.range count).foldlM (wakeSurfacePass slots) (({}, 0) : PolyData × ℕ)
  pure s.1

/-! ## Scalars and colour limits -/

/-- The coefficient of a panel shown for a scalar type (output.py 1266-1271); `none` is a panel without results. -/
def panelScalar (scalarType : String) (s : PanelState) : List (Option ℝ) :=
  if scalarType = "induced drag" then [s.loads.map (·.coefficients.inducedDrag)]
  else if scalarType = "side force" then [s.loads.map (·.coefficients.sideForce)]
  else if scalarType = "lift" then [s.loads.map (·.coefficients.lift)]
  else []

/-- `get_scalars` (output.py 1236-1274). -/
def getScalars (airplanes : List Airplane) (heap : PanelHeap) (scalarType : String) : List (Option ℝ) :=
  (panelRefs airplanes).foldl (fun scalars r => scalars ++ panelScalar scalarType (heap r)) []

/-- Whether a scalar type is one of the three to be shown (output.py 172-178, 365-371). -/
def showsScalars (scalarType : Option String) : Bool :=
  scalarType = some "induced drag" ∨ scalarType = some "side force" ∨ scalarType = some "lift"

/-- `np.std` (output.py 196-207, 392-403). -/
def std (l : List ℝ) : ℝ := Real.sqrt (mean (l.map fun x => (x - mean l) ^ 2))

/-- The colour map, its limits and the two labels (output.py 188-207, 390-406). -/
structure Colors where
  diverging : Bool
  lower : ℝ
  upper : ℝ
  minLabel : ℝ
  maxLabel : ℝ

/-- The values as floats (output.py 188-194, 390): comparing `None` with a number is a `TypeError`. -/
def floats (scalars : List (Option ℝ)) : Except Err (List ℝ) :=
  scalars.mapM fun x => x.elim (.error .typeError) .ok

open Classical in
/-- The choice of the colour map and its limits (output.py 188-207, 390-406). The minimum of an empty array is a
`ValueError`. -/
def colors (scalars : List (Option ℝ)) : Except Err Colors := do
  let values ← floats scalars
  match values.min?, values.max? with
  | some lo, some hi =>
    if SignType.sign lo = SignType.sign hi then
      .ok ⟨false, max (mean values - 3 * std values) lo, min (mean values + 3 * std values) hi, roundTo 2 lo,
        roundTo 2 hi⟩
    else .ok ⟨true, -3 * std values, 3 * std values, roundTo 2 lo, roundTo 2 hi⟩
  | _, _ => .error .valueError

/-! ## Streamlines -/

/-- The line segments drawn for the streamlines (output.py 228-257): for every spanwise position, a line from each
point but the last to the next. The points are the rows of `streamline_points`, one row per step of integration. -/
def streamlineSegments (points : List (List V3)) : List (V3 × V3) :=
  (List.range (points.headD []).length).flatMap fun j =>
    let column := points.map fun row => row.getD j 0
    (List.range (column.length - 1)).map fun i => (column.getD i 0, column.getD (i + 1) 0)

/-! ## Drawings -/

/-- What `draw` puts into the picture (output.py 106-257): the panels, coloured by scalars (`plot_scalars`,
output.py 1277-1346) or all alike, the wake and the lines of the streamlines. -/
structure Picture where
  surfaces : PolyData
  scalars : Option (List (Option ℝ) × Colors)
  wake : Option PolyData
  lines : List (V3 × V3)

/-- The scalars on the panels with their colours (output.py 172-226). -/
def pictureScalars (airplanes : List Airplane) (heap : PanelHeap) (scalarType : Option String) :
    Except Err (Option (List (Option ℝ) × Colors)) :=
  if showsScalars scalarType then
    let scalars := getScalars airplanes heap (scalarType.getD "")
    (colors scalars).map fun c => some (scalars, c)
  else .ok none

/-- The lines of the streamlines (output.py 228-257). The points are `None` on a solver that has not computed them; the
attribute `shape` of `None` is an `AttributeError`. -/
def pictureLines (points : Option (List (List V3))) (showStreamlines : Bool) : Except Err (List (V3 × V3)) :=
  if showStreamlines then points.elim (.error .attributeError) fun rows => .ok (streamlineSegments rows)
  else .ok []

/-- The wake in a picture of an unsteady solver's step (output.py 151-167). -/
def pictureWake (s : UnsteadySolver) (step : ℕ) (showWake : Bool) : Except Err (Option PolyData) :=
  if showWake then (wakeSurfaces s.wakeCounts s.wakeArrays step).map some else .ok none

/-- The part of `draw` common to all solvers (output.py 172-257). Showing and saving the picture is not modelled, nor is
what pyvista does with a mesh without faces. -/
def picture (airplanes : List Airplane) (heap : PanelHeap) (points : Option (List (List V3))) (wake : Option PolyData)
    (scalarType : Option String) (showStreamlines : Bool) : Except Err Picture := do
  let scalars ← pictureScalars airplanes heap scalarType
  let lines ← pictureLines points showStreamlines
  pure ⟨panelSurfaces airplanes, scalars, wake, lines⟩

/-- `draw` of a steady horseshoe solver (output.py 106-257); `show_wake_vortices` has no effect. -/
def HorseshoeSolver.draw (s : HorseshoeSolver) (scalarType : Option String := none) (showStreamlines : Bool := false)
    (_showWake : Bool := false) : Except Err Picture :=
  picture s.airplanes s.heap s.streamlines none scalarType showStreamlines

/-- `draw` of a steady ring solver (output.py 106-257); `show_wake_vortices` has no effect. -/
def RingSolver.draw (s : RingSolver) (scalarType : Option String := none) (showStreamlines : Bool := false)
    (_showWake : Bool := false) : Except Err Picture :=
  picture s.airplanes s.heap s.streamlines none scalarType showStreamlines

/-- `draw` of an unsteady solver (output.py 106-257): the last step is shown. Simplification: without steps,
`steady_problems[-1]` is an `IndexError`; such a problem cannot be made. -/
def UnsteadySolver.draw (s : UnsteadySolver) (scalarType : Option String := none) (showStreamlines : Bool := false)
    (showWake : Bool := false) : Except Err Picture := do
  let step := s.problem.numSteps - 1
  let wake ← pictureWake s step showWake
  picture (s.problem.airplanesAt step) (s.panels step) s.streamlines wake scalarType showStreamlines

/-! ## Animations -/

open Classical in
/-- The frame rate and the speed of an animation (output.py 339-343). -/
def animationRate (deltaTime : ℝ) : Except Err (ℤ × ℝ) :=
  if deltaTime = 0 then .error .zeroDivisionError
  else
    let requested := 1 / deltaTime
    let speed := if requested > 50 then 50 / requested else 1
    .ok (⌊requested * speed⌋, speed)

/-- One frame of an animation (output.py 409-433, 477-531). -/
structure Frame where
  surfaces : PolyData
  scalars : Option (List (Option ℝ))
  wake : Option PolyData

/-- An animation (output.py 299-557). -/
structure Animation where
  frames : List Frame
  rate : ℤ
  speed : ℝ
  colors : Option Colors

/-- The scalars of the frame of a step: shown if wanted and computed (output.py 413-414, 510-512). The first frame's test is
`first_results_step == 0`; the step is not negative for problems with steps (problems.py 83-96). -/
def frameScalars (s : UnsteadySolver) (scalarType : String) (shown : Bool) (k : ℕ) : Option (List (Option ℝ)) :=
  if shown ∧ s.problem.firstResultsStep ≤ (k : ℤ) then
    some (getScalars (s.problem.airplanesAt k) (s.panels k) scalarType)
  else none

/-- The frame of a step (output.py 409-433 for the first, 477-531 for the others); the first never shows the wake. -/
def frame (s : UnsteadySolver) (scalarType : String) (shown wake : Bool) (k : ℕ) : Except Err Frame := do
  let surfaces := panelSurfaces (s.problem.airplanesAt k)
  let scalars := frameScalars s scalarType shown k
  if wake ∧ k ≠ 0 then
    let w ← wakeSurfaces s.wakeCounts s.wakeArrays k
    .ok ⟨surfaces, scalars, some w⟩
  else .ok ⟨surfaces, scalars, none⟩

/-- The scalars of all time steps (output.py 383-385). -/
def allScalars (s : UnsteadySolver) (scalarType : String) : List (Option ℝ) :=
  (List.range s.problem.steadyProblems.length).flatMap fun k =>
    getScalars (s.problem.airplanesAt k) (s.panels k) scalarType

/-- The colours of an animation (output.py 374-406). -/
def animationColors (s : UnsteadySolver) (scalarType : Option String) : Except Err (Option Colors) :=
  if showsScalars scalarType then (colors (allScalars s (scalarType.getD ""))).map some else .ok none

/-- `animate` (output.py 299-557), with `save=True`. `step_airplanes[0]` is an `IndexError` for a problem without
steps. -/
def animate (s : UnsteadySolver) (scalarType : Option String := none) (wake : Bool := false) :
    Except Err Animation := do
  let (rate, speed) ← animationRate s.problem.deltaTime
  let colors ← animationColors s scalarType
  if s.problem.steadyProblems.length = 0 then .error .indexError
  else
    let frames ← (List.range s.problem.steadyProblems.length).mapM
      (frame s (scalarType.getD "") (showsScalars scalarType) wake)
    .ok ⟨frames, rate, speed, colors⟩

/-- The text shown in every frame (output.py 353-362, 485-492): the speed in whole percent. -/
def Animation.text (A : Animation) : List Char :=
  "Speed: ".toList ++ (toString (pyRound (100 * A.speed))).toList ++ "%".toList

/-! ## Plots -/

/-- The times of the plots (output.py 577-595). -/
def plotTimes (s : UnsteadySolver) : List ℝ :=
  linspace (s.problem.deltaTime * (s.problem.firstResultsStep : ℝ)) (s.problem.deltaTime * ((s.problem.numSteps : ℝ) - 1))
    (s.problem.numSteps - s.problem.firstResultsStep.toNat)

/-- The loads plotted for an airplane (output.py 599-636): the entry at `results_step` is that of the step
`first_results_step + results_step`. -/
def plotLoads (s : UnsteadySolver) (airplane : ℕ) : List (Option AirplaneLoads) :=
  (List.range (s.problem.numSteps - s.problem.firstResultsStep.toNat)).map fun k =>
    (s.loads (s.problem.firstResultsStep.toNat + k))[airplane]?

/-- The twelve labelled quantities of an airplane, as plotted (output.py 696-803) or printed. -/
structure Report where
  inducedDrag : ℝ
  sideForce : ℝ
  lift : ℝ
  rollingMoment : ℝ
  pitchingMoment : ℝ
  yawingMoment : ℝ
  cdi : ℝ
  cy : ℝ
  cl : ℝ
  cRoll : ℝ
  cPitch : ℝ
  cYaw : ℝ

/-- Which component goes with which label (output.py 696-803, 891-966, 1001-1093). -/
def Report.of (force moment forceCoefficients momentCoefficients : V3) : Report :=
  { inducedDrag := force.x, sideForce := force.y, lift := force.z
    rollingMoment := moment.x, pitchingMoment := moment.y, yawingMoment := moment.z
    cdi := forceCoefficients.x, cy := forceCoefficients.y, cl := forceCoefficients.z
    cRoll := momentCoefficients.x, cPitch := momentCoefficients.y, cYaw := momentCoefficients.z }

/-- The report of an airplane's loads (output.py 696-803, 891-966). -/
def AirplaneLoads.report (l : AirplaneLoads) : Report :=
  Report.of l.forceWind l.momentWind l.forceCoefficients l.momentCoefficients

/-- Every quantity rounded to three digits (output.py 891-966, 1018-1093). -/
def Report.rounded (r : Report) : Report :=
  { inducedDrag := roundTo 3 r.inducedDrag, sideForce := roundTo 3 r.sideForce, lift := roundTo 3 r.lift
    rollingMoment := roundTo 3 r.rollingMoment, pitchingMoment := roundTo 3 r.pitchingMoment
    yawingMoment := roundTo 3 r.yawingMoment
    cdi := roundTo 3 r.cdi, cy := roundTo 3 r.cy, cl := roundTo 3 r.cl
    cRoll := roundTo 3 r.cRoll, cPitch := roundTo 3 r.cPitch, cYaw := roundTo 3 r.cYaw }

/-! ## Printed results -/

/-- `print_steady_results` (output.py 877-971), its numbers: one report per airplane. The total loads of an airplane
that was not solved are `None`, and indexing them is a `TypeError`. -/
def printSteadyResults (airplanes : List Airplane) (loads : List AirplaneLoads) : Except Err (List Report) :=
  (List.range airplanes.length).mapM fun i =>
    match loads[i]? with
    | none => .error .typeError
    | some l => .ok l.report.rounded

/-- The report of one airplane in `print_unsteady_results` (output.py 996-1093). -/
def unsteadyReport (lists : ResultLists) (i : ℕ) : Except Err Report :=
  match lists.forces[i]?, lists.moments[i]?, lists.forceCoefficients[i]?, lists.momentCoefficients[i]? with
  | some f, some m, some cf, some cm => .ok (Report.of f m cf cm).rounded
  | _, _, _, _ => .error .indexError

/-- `print_unsteady_results` (output.py 974-1098), its numbers: one report per airplane, of the final means. -/
def printUnsteadyResults (s : UnsteadySolver) : Except Err (List Report) :=
  (List.range (s.problem.airplanesAt 0).length).mapM (unsteadyReport s.finalMean)

/-! ## Names, printed texts and saved plots -/

/-- A line of a plot (output.py 696-803); `none` is the NaN that a missing load (`None`) becomes in an array. -/
structure Series where
  label : List Char
  values : List (Option ℝ)

/-- A figure of `plot_results_versus_time` (output.py 642-846). Colours, markers and fonts are not modelled. -/
structure Figure where
  title : List Char
  xLabel : List Char
  yLabel : List Char
  times : List ℝ
  series : List Series

/-- Three lines of a figure, the components of a vector at every step (output.py 696-803). -/
def threeSeries (first second third : String) (vectors : List (Option V3)) : List Series :=
  [⟨first.toList, vectors.map fun v => v.map (·.x)⟩, ⟨second.toList, vectors.map fun v => v.map (·.y)⟩,
   ⟨third.toList, vectors.map fun v => v.map (·.z)⟩]

/-- The four figures of an airplane with the files they are saved to (output.py 696-865). -/
def figures (name : List Char) (times : List ℝ) (loads : List (Option AirplaneLoads)) : List (List Char × Figure) :=
  [(name ++ " Forces.png".toList,
     { title := name ++ " Forces vs. Time".toList, xLabel := "Time (s)".toList, yLabel := "Force (N)".toList
       times := times
       series := threeSeries "Induced Drag" "Side Force" "Lift" (loads.map fun l => l.map (·.forceWind)) }),
   (name ++ " Force Coefficients.png".toList,
     { title := name ++ " Force Coefficients vs. Time".toList, xLabel := "Time (s)".toList
       yLabel := "Coefficient".toList, times := times
       series := threeSeries "Induced Drag" "Side Force" "Lift" (loads.map fun l => l.map (·.forceCoefficients)) }),
   (name ++ " Moments.png".toList,
     { title := name ++ " Moments vs. Time".toList, xLabel := "Time (s)".toList, yLabel := "Moment (N m)".toList
       times := times
       series := threeSeries "Roll" "Pitch" "Yaw" (loads.map fun l => l.map (·.momentWind)) }),
   (name ++ " Moment Coefficients.png".toList,
     { title := name ++ " Moment Coefficients vs. Time".toList, xLabel := "Time (s)".toList
       yLabel := "Coefficient".toList, times := times
       series := threeSeries "Roll" "Pitch" "Yaw" (loads.map fun l => l.map (·.momentCoefficients)) })]

/-- The figures `plot_results_versus_time(save=True)` writes, in their order (output.py 639-865). `names` are the names of
the airplanes, which generated airplanes take from their base airplanes (movement.py 429-442). -/
def plotFiles (s : UnsteadySolver) (names : List (List Char)) : List (List Char × Figure) :=
  (List.range (s.problem.airplanesAt 0).length).flatMap fun i =>
    figures (names.getD i []) (plotTimes s) (plotLoads s i)

/-- The files of a directory after some were written to it, a later one replacing an earlier one of the same name
(`savefig`, output.py 849-865). Simplification: names that are not valid file names, or that the file system takes for the
same, are not modelled. -/
def writeFiles (directory : List Char → Option Figure) (files : List (List Char × Figure)) : List Char → Option Figure :=
  open Classical in
  files.foldl (fun d f => Function.update d f.1 (some f.2)) directory

/-- `plot_results_versus_time(save=True)` (output.py 560-874): the directory afterwards. -/
def savePlots (s : UnsteadySolver) (names : List (List Char)) (directory : List Char → Option Figure) :
    List Char → Option Figure :=
  writeFiles directory (plotFiles s names)

/-- The lines printed for an airplane below its name (output.py 891-966 with `kind = ""`, 1018-1093 with
`kind = "Final "`); a heading that begins with a line break is two lines. `shown` is how NumPy prints a number. -/
def reportLines (shown : ℝ → List Char) (kind : String) (r : Report) : List (List Char) :=
  ["\t".toList ++ kind.toList ++ "Forces in Wind Axes:".toList,
   "\t\tInduced Drag:\t\t\t".toList ++ shown r.inducedDrag ++ " N".toList,
   "\t\tSide Force:\t\t\t\t".toList ++ shown r.sideForce ++ " N".toList,
   "\t\tLift:\t\t\t\t\t".toList ++ shown r.lift ++ " N".toList,
   [],
   "\t".toList ++ kind.toList ++ "Moments in Wind Axes:".toList,
   "\t\tRolling Moment:\t\t\t".toList ++ shown r.rollingMoment ++ " Nm".toList,
   "\t\tPitching Moment:\t\t".toList ++ shown r.pitchingMoment ++ " Nm".toList,
   "\t\tYawing Moment:\t\t\t".toList ++ shown r.yawingMoment ++ " Nm".toList,
   [],
   "\t".toList ++ kind.toList ++ "Force Coefficients in Wind Axes:".toList,
   "\t\tCDi:\t\t\t\t\t".toList ++ shown r.cdi,
   "\t\tCY:\t\t\t\t\t\t".toList ++ shown r.cy,
   "\t\tCL:\t\t\t\t\t\t".toList ++ shown r.cl,
   [],
   "\t".toList ++ kind.toList ++ "Moment Coefficients in Wind Axes:".toList,
   "\t\tCl:\t\t\t\t\t\t".toList ++ shown r.cRoll,
   "\t\tCm:\t\t\t\t\t\t".toList ++ shown r.cPitch,
   "\t\tCn:\t\t\t\t\t\t".toList ++ shown r.cYaw]

/-- The text of the reports: for every airplane the line with its name, the lines of its report and, unless it is the
last, an empty line (output.py 887-971, 993-1098). Simplification: a name with line breaks is one line here. -/
def reportText (shown : ℝ → List Char) (before kind : String) (names : List (List Char)) (reports : List Report) :
    List (List Char) :=
  reports.zipIdx.flatMap fun r =>
    (before.toList ++ names.getD r.2 [] ++ ":".toList) :: reportLines shown kind r.1 ++
      if r.2 + 1 < reports.length then [[]] else []

/-- `print_steady_results` (output.py 877-971): the lines of the text. -/
def printSteadyText (shown : ℝ → List Char) (names : List (List Char)) (airplanes : List Airplane)
    (loads : List AirplaneLoads) : Except Err (List (List Char)) :=
  (printSteadyResults airplanes loads).map (reportText shown "Airplane " "" names)

/-- `print_unsteady_results` (output.py 974-1098): the lines of the text. -/
def printUnsteadyText (shown : ℝ → List Char) (names : List (List Char)) (s : UnsteadySolver) :
    Except Err (List (List Char)) :=
  (printUnsteadyResults s).map (reportText shown "" "Final " names)

end

end Ptera
