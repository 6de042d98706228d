import Verif.Model.Geometry
import Verif.Model.OperatingPoint

/-!
# Model of `pterasoftware/movement.py` and `pterasoftware/problems.py`

Simplifications: names are omitted; numbers of time steps are natural numbers (a negative `math.ceil` result raises
`ValueError`, as `np.ones` of a negative length does); division by a zero velocity or time step is Lean's `x / 0 = 0`
(Python raises or gives inf), so theorems that divide carry the guard.
-/

namespace Ptera

noncomputable section

/-! ## Oscillations -/

/-- `np.ones(n) * v` (movement.py 1161-1164, 1384, 1422, 1470). -/
def constList (n : ℕ) (v : ℝ) : List ℝ := List.replicate n (1 * v)

/-- The times of the steps, `np.linspace(0, n * dt, n, endpoint=False)` (movement.py 1387-1390). -/
def stepTimes (n : ℕ) (dt : ℝ) : List ℝ := linspace 0 (n * dt) n false

/-- `scipy.signal.sawtooth(t, 0.5)`: `tmod = np.mod(t, 2π)`; `tmod / (π w) - 1` where `tmod < 2 π w`, else
`(π (w + 1) - tmod) / (π (1 - w))`, with `w = 0.5`. -/
def sawtooth (t : ℝ) : ℝ :=
  let tmod := t - 2 * Real.pi * ⌊t / (2 * Real.pi)⌋
  open Classical in
  if tmod < 0.5 * 2 * Real.pi then tmod / (Real.pi * 0.5) - 1
  else (Real.pi * (0.5 + 1) - tmod) / (Real.pi * (1 - 0.5))

/-- `oscillating_sinspace` (movement.py 1364-1399). -/
def oscillatingSinspace (amplitude period base : ℝ) (n : ℕ) (dt : ℝ) : List ℝ :=
  open Classical in
  if amplitude = 0 ∨ period = 0 then constList n base
  else
    let b := 2 * Real.pi / period
    (stepTimes n dt).map fun t => amplitude * Real.sin (b * (t - 0)) + base

/-- `oscillating_linspace` (movement.py 1402-1437). -/
def oscillatingLinspace (amplitude period base : ℝ) (n : ℕ) (dt : ℝ) : List ℝ :=
  open Classical in
  if amplitude = 0 ∨ period = 0 then constList n base
  else
    let b := 2 * Real.pi / period
    let h := Real.pi / 2
    (stepTimes n dt).map fun t => amplitude * sawtooth (b * t + h) + base

/-- `oscillating_customspace` (movement.py 1440-1485); the custom function acts elementwise. -/
def oscillatingCustomspace (amplitude period base : ℝ) (n : ℕ) (dt : ℝ) (f : ℝ → ℝ) : List ℝ :=
  open Classical in
  if amplitude = 0 ∨ period = 0 then constList n base
  else
    let b := 2 * Real.pi / period
    (stepTimes n dt).map fun t => amplitude * f (b * (t - 0)) + base

/-- The amplitude, period, spacing (and custom function) arguments of one oscillating quantity (arguments of the
`__init__` methods at movement.py 250-263, 491-504, 860-875, 1258-1264). -/
structure Oscillation where
  amplitude : ℝ := 0
  period : ℝ := 0
  spacing : String := "sine"
  custom : Option (ℝ → ℝ) := none

/-- The spacing dispatch of reference points, leading edges and velocity (movement.py 334-357, 570-593,
1303-1326). -/
def Oscillation.values (o : Oscillation) (base : ℝ) (n : ℕ) (dt : ℝ) : Except Err (List ℝ) :=
  if o.spacing = "sine" then .ok (oscillatingSinspace o.amplitude o.period base n dt)
  else if o.spacing = "uniform" then .ok (oscillatingLinspace o.amplitude o.period base n dt)
  else .error .exception

/-- The spacing dispatch of sweep, pitch and heave, which also knows "custom" (movement.py 1029-1158). -/
def Oscillation.valuesCustom (o : Oscillation) (base : ℝ) (n : ℕ) (dt : ℝ) : Except Err (List ℝ) :=
  if o.spacing = "sine" then .ok (oscillatingSinspace o.amplitude o.period base n dt)
  else if o.spacing = "uniform" then .ok (oscillatingLinspace o.amplitude o.period base n dt)
  else if o.spacing = "custom" then
    match o.custom with
    | none => .error .exception
    | some f => .ok (oscillatingCustomspace o.amplitude o.period base n dt f)
  else .error .exception

/-! ## Cross sections -/

/-- `WingCrossSectionMovement` (movement.py 860-971). -/
structure WingCrossSectionMovement where
  base : WingCrossSection
  sweeping : Oscillation := {}
  pitching : Oscillation := {}
  heaving : Oscillation := {}

namespace WingCrossSectionMovement

/-- The new leading edge (movement.py 1172-1180), angles in degrees. -/
def movedLeadingEdge (last : V3) (span sweep heave : ℝ) : V3 :=
  ⟨last.x + span * Real.cos (sweep * Real.pi / 180) * Real.sin (heave * Real.pi / 180),
   last.y + span * Real.cos (sweep * Real.pi / 180) * Real.cos (heave * Real.pi / 180),
   last.z + span * Real.sin (sweep * Real.pi / 180)⟩

/-- The new cross section of one time step (movement.py 1198-1221): attributes not passed take the constructor's
defaults, in particular the unit normal. -/
def rebuild (b : WingCrossSection) (le : V3) (twist : ℝ) : Except Err WingCrossSection :=
  WingCrossSection.create b.airfoil (leadingEdge := le) (chord := b.chord) (twist := twist)
    (controlSurfaceType := b.controlSurfaceType) (hinge := b.hinge) (deflection := b.deflection)
    (numSpanwisePanels := b.numSpanwisePanels) (spanwiseSpacing := b.spanwiseSpacing)

/-- `generate_wing_cross_sections` (movement.py 973-1224). `last` are the inner section's leading edges, one per
step. -/
def generate (m : WingCrossSectionMovement) (n : ℕ) (dt : ℝ) (last : List V3) (vertical : Bool)
    (span sweep heave : ℝ) : Except Err (List WingCrossSection) := do
  let sweeps ← m.sweeping.valuesCustom sweep n dt
  let pitches ← m.pitching.valuesCustom m.base.twist n dt
  let heaves ← m.heaving.valuesCustom heave n dt
  (List.range n).mapM fun k =>
    if vertical then rebuild m.base m.base.leadingEdge m.base.twist
    else rebuild m.base (movedLeadingEdge (last.getD k 0) span (sweeps.getD k 0) (heaves.getD k 0))
      (pitches.getD k 0)

/-- `get_max_period` (movement.py 1226-1237). -/
def maxPeriod (m : WingCrossSectionMovement) : ℝ :=
  max (max m.sweeping.period m.pitching.period) m.heaving.period

end WingCrossSectionMovement

/-! ## Wings -/

/-- Python's `max` of a list of floats (movement.py 223, 462, 828); `ValueError` if empty. -/
def pyMax : List ℝ → Except Err ℝ
  | [] => .error .valueError
  | a :: l => .ok (l.foldl max a)

/-- `WingMovement` (movement.py 491-554). -/
structure WingMovement where
  base : Wing
  sectionMovements : List WingCrossSectionMovement
  xLe : Oscillation := {}
  yLe : Oscillation := {}
  zLe : Oscillation := {}

namespace WingMovement

open Classical in
/-- The generated history of one section (movement.py 655-777): `last` is the inner section's history, `none` for
the root. -/
def sectionHistory (n : ℕ) (dt : ℝ) (last : Option (List WingCrossSection)) (m : WingCrossSectionMovement) :
    Except Err (List WingCrossSection) :=
  match last with
  | none =>
    if m.sweeping.amplitude ≠ 0 ∨ m.sweeping.period ≠ 0 ∨ m.heaving.amplitude ≠ 0 ∨ m.heaving.period ≠ 0 then
      .error .assertionError
    else m.generate n dt (List.replicate n 0) false 0 0 0
  | some prev =>
    match prev with
    | [] => .error .indexError
    | first :: _ =>
      let this := m.base.leadingEdge
      let d := this - first.leadingEdge
      let span := Real.sqrt (d.x ^ 2 + d.y ^ 2 + d.z ^ 2)
      let les := prev.map (·.leadingEdge)
      if this.y ≠ first.leadingEdge.y then
        m.generate n dt les false span (Real.arctan (d.z / d.y) * 180 / Real.pi)
          (Real.arctan (d.x / d.y) * 180 / Real.pi)
      else m.generate n dt les true span 0 0

/-- The loop over section movements (movement.py 649-777). -/
def sectionHistories (n : ℕ) (dt : ℝ) :
    Option (List WingCrossSection) → List WingCrossSectionMovement → Except Err (List (List WingCrossSection))
  | _, [] => .ok []
  | last, m :: ms => do
    let h ← sectionHistory n dt last m
    let rest ← sectionHistories n dt (some h) ms
    return h :: rest

/-- `generate_wings` (movement.py 556-813). A column `[:, step]` that is not there (no section movements) gives
an empty list of cross sections. The unit normal and chordwise vectors are not passed on. -/
def generate (m : WingMovement) (n : ℕ) (dt : ℝ) : Except Err (List Wing) := do
  let xs ← m.xLe.values m.base.spec.leadingEdge.x n dt
  let ys ← m.yLe.values m.base.spec.leadingEdge.y n dt
  let zs ← m.zLe.values m.base.spec.leadingEdge.z n dt
  let histories ← sectionHistories n dt none m.sectionMovements
  (List.range n).mapM fun k =>
    Wing.create (histories.filterMap (·[k]?)) (leadingEdge := ⟨xs.getD k 0, ys.getD k 0, zs.getD k 0⟩)
      (symmetric := m.base.spec.symmetric) (numChordwisePanels := m.base.spec.numChordwisePanels)
      (chordwiseSpacing := m.base.spec.chordwiseSpacing)

/-- `get_max_period` (movement.py 815-839). -/
def maxPeriod (m : WingMovement) : Except Err ℝ := do
  let p ← pyMax (m.sectionMovements.map (·.maxPeriod))
  return max (max (max p m.xLe.period) m.yLe.period) m.zLe.period

end WingMovement

/-! ## Airplanes -/

/-- `AirplaneMovement` (movement.py 250-317). -/
structure AirplaneMovement where
  base : Airplane
  wingMovements : List WingMovement
  xRef : Oscillation := {}
  yRef : Oscillation := {}
  zRef : Oscillation := {}

namespace AirplaneMovement

/-- `generate_airplanes` (movement.py 319-449). Weight and reference dimensions are not passed on. -/
def generate (m : AirplaneMovement) (n : ℕ) (dt : ℝ) : Except Err (List Airplane) := do
  let xs ← m.xRef.values m.base.xyzRef.x n dt
  let ys ← m.yRef.values m.base.xyzRef.y n dt
  let zs ← m.zRef.values m.base.xyzRef.z n dt
  let wings ← m.wingMovements.mapM fun w => w.generate n dt
  (List.range n).mapM fun k =>
    Airplane.create (wings.filterMap (·[k]?)) (xyzRef := ⟨xs.getD k 0, ys.getD k 0, zs.getD k 0⟩)

/-- `get_max_period` (movement.py 451-471). -/
def maxPeriod (m : AirplaneMovement) : Except Err ℝ := do
  let ps ← m.wingMovements.mapM (·.maxPeriod)
  let p ← pyMax ps
  return max (max (max p m.xRef.period) m.yRef.period) m.zRef.period

end AirplaneMovement

/-! ## Operating points -/

/-- `OperatingPointMovement` (movement.py 1258-1286). -/
structure OperatingPointMovement where
  base : OperatingPoint
  velocity : Oscillation := {}

namespace OperatingPointMovement

/-- `generate_operating_points` (movement.py 1288-1350): external thrust and viscosity are not passed on. -/
def generate (m : OperatingPointMovement) (n : ℕ) (dt : ℝ) : Except Err (List OperatingPoint) := do
  let vs ← m.velocity.values m.base.velocity n dt
  return (List.range n).map fun k =>
    { density := m.base.density, velocity := vs.getD k 0, alpha := m.base.alpha, beta := m.base.beta }

/-- `get_max_period` (movement.py 1352-1361). -/
def maxPeriod (m : OperatingPointMovement) : ℝ := m.velocity.period

end OperatingPointMovement

/-! ## Movements -/

/-- The attributes of `Movement` after `__init__` (movement.py 60-209). -/
structure Movement where
  airplaneMovements : List AirplaneMovement
  operatingPointMovement : OperatingPointMovement
  numSteps : ℕ
  deltaTime : ℝ
  airplanes : List (List Airplane)
  operatingPoints : List OperatingPoint

/-- `Movement.get_max_period` (movement.py 211-230). -/
def movementMaxPeriod (ams : List AirplaneMovement) (om : OperatingPointMovement) : Except Err ℝ := do
  let ps ← ams.mapM (·.maxPeriod)
  let p ← pyMax ps
  return max p om.maxPeriod

/-- The default time step (movement.py 135-151). -/
def defaultDeltaTime (ams : List AirplaneMovement) (om : OperatingPointMovement) : Except Err ℝ := do
  let ts ← ams.mapM fun am =>
    match am.base.wings with
    | [] => .error .indexError
    | w :: _ => .ok (am.base.cRef / w.spec.numChordwisePanels / om.base.velocity)
  if ts = [] then .error .zeroDivisionError
  else return ts.sum / ts.length

open Classical in
/-- The validation of `num_cycles` and `num_chords` (movement.py 111-131). -/
def checkRunLength (maxPeriod : Except Err ℝ) (numSteps : Option ℕ) (numCycles numChords : Option ℕ) :
    Except Err Unit := do
  if numCycles.isSome then
    if numSteps.isSome then .error .exception
    else
      let p ← maxPeriod
      if p = 0 then .error .exception
  if numChords.isSome then
    if numSteps.isSome then .error .exception
    else
      let p ← maxPeriod
      if p ≠ 0 then .error .exception

open Classical in
/-- The number of steps (movement.py 153-189). -/
def runLength (ams : List AirplaneMovement) (om : OperatingPointMovement) (dt : ℝ) (numSteps : Option ℕ)
    (numCycles numChords : Option ℕ) : Except Err ℕ :=
  match numSteps with
  | some n => .ok n
  | none => do
    let p ← movementMaxPeriod ams om
    let count : ℤ ←
      if p = 0 then do
        let c ← pyMax (ams.map (·.base.cRef))
        pure ⌈(numChords.getD 10 : ℝ) * c / (dt * om.base.velocity)⌉
      else pure ⌈(numCycles.getD 3 : ℝ) * p / dt⌉
    if count < 0 then .error .valueError else return count.toNat

/-- The time step (movement.py 135-151): the given one or the default. -/
def chooseDeltaTime (ams : List AirplaneMovement) (om : OperatingPointMovement) (deltaTime : Option ℝ) :
    Except Err ℝ :=
  match deltaTime with
  | some dt => .ok dt
  | none => defaultDeltaTime ams om

/-- `Movement.__init__` (movement.py 60-209). -/
def Movement.create (ams : List AirplaneMovement) (om : OperatingPointMovement) (numSteps : Option ℕ := none)
    (numCycles numChords : Option ℕ := none) (deltaTime : Option ℝ := none) : Except Err Movement := do
  checkRunLength (movementMaxPeriod ams om) numSteps numCycles numChords
  let dt ← chooseDeltaTime ams om deltaTime
  let n ← runLength ams om dt numSteps numCycles numChords
  let airplanes ← ams.mapM fun am => am.generate n dt
  let ops ← om.generate n dt
  return { airplaneMovements := ams, operatingPointMovement := om, numSteps := n, deltaTime := dt
           airplanes := airplanes, operatingPoints := ops }

/-- `Movement.get_max_period` (movement.py 211-230) as a method. -/
def Movement.maxPeriod (m : Movement) : Except Err ℝ :=
  movementMaxPeriod m.airplaneMovements m.operatingPointMovement

/-! ## Problems (`problems.py`) -/

/-- `SteadyProblem` (problems.py 17-40). -/
structure SteadyProblem where
  airplanes : List Airplane
  operatingPoint : OperatingPoint

/-- The attributes of `UnsteadyProblem` (problems.py 43-143) other than the (initially empty) result lists. -/
structure UnsteadyProblem where
  numSteps : ℕ
  deltaTime : ℝ
  onlyFinalResults : Bool
  maxPeriod : ℝ
  firstAveragingStep : ℤ
  firstResultsStep : ℤ
  steadyProblems : List SteadyProblem

open Classical in
/-- `first_averaging_step` (problems.py 82-87). -/
def averagingStart (numSteps : ℕ) (maxPeriod deltaTime : ℝ) : ℤ :=
  if maxPeriod = 0 then (numSteps : ℤ) - 1
  else max 0 ⌊(numSteps : ℝ) - maxPeriod / deltaTime⌋

/-- The list of steady problems (problems.py 122-143); a missing step is an `IndexError`. -/
def steadyProblemAt (m : Movement) (step : ℕ) : Except Err SteadyProblem := do
  let airplanes ← m.airplanes.mapM fun (history : List Airplane) =>
    match history[step]? with
    | some a => .ok a
    | none => .error .indexError
  match m.operatingPoints[step]? with
  | some op => return { airplanes := airplanes, operatingPoint := op }
  | none => .error .indexError

/-- `UnsteadyProblem.__init__` (problems.py 43-143). -/
def UnsteadyProblem.create (m : Movement) (onlyFinalResults : Bool := false) : Except Err UnsteadyProblem := do
  let p ← m.maxPeriod
  let first := averagingStart m.numSteps p m.deltaTime
  let problems ← (List.range m.numSteps).mapM (steadyProblemAt m)
  return { numSteps := m.numSteps, deltaTime := m.deltaTime, onlyFinalResults := onlyFinalResults
           maxPeriod := p, firstAveragingStep := first
           firstResultsStep := if onlyFinalResults then first else 0
           steadyProblems := problems }

end

end Ptera
