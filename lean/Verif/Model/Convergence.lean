import Verif.Model.SteadyHorseshoe
import Verif.Model.SteadyRing
import Verif.Model.Unsteady

/-!
# Model of `pterasoftware/convergence.py`

Logging and the iteration times, which only go to the log, are left out. The bounds are Python integers.
-/

namespace Ptera

noncomputable section

/-! ## Percent changes -/

/-- A float that is a number, infinite, or NaN: the percent changes (convergence.py 316-376, 1019-1108) can be either,
when a coefficient is zero. -/
inductive Change where
  | real (r : ℝ)
  | inf
  | nan

namespace Change

open Classical in
/-- `100 * np.abs((this - last) / last)` (convergence.py 327-331, 1030-1034). -/
def between (this last : ℝ) : Change :=
  if last = 0 then if this = 0 then nan else inf else real (100 * |(this - last) / last|)

open Classical in
/-- `a > b` of floats, as used by `max` (convergence.py 326-340, 362-376). -/
def gt : Change → Change → Bool
  | real a, real b => decide (a > b)
  | inf, real _ => true
  | _, _ => false

open Classical in
/-- `c < criteria` (convergence.py 401-402, 1138-1141). -/
def below : Change → ℝ → Bool
  | real r, criteria => decide (r < criteria)
  | _, _ => false

/-- Python's `max(a, b)` (convergence.py 340, 376): the second argument only if it is greater. -/
def max2 (a b : Change) : Change := if gt b a then b else a

/-- Python's `max` of an array (convergence.py 326-339, 362-375). -/
def maxOf : List Change → Except Err Change
  | [] => .error .valueError
  | a :: l => .ok (l.foldl max2 a)

/-- One step of `np.max` (convergence.py 1029-1035), which propagates NaN. -/
def npMax2 (a b : Change) : Change :=
  match a, b with
  | nan, _ => nan
  | _, nan => nan
  | a, b => if gt b a then b else a

/-- `np.max` of an array (convergence.py 1029, 1053, 1078, 1102). -/
def npMaxOf : List Change → Except Err Change
  | [] => .error .valueError
  | a :: l => .ok (l.foldl npMax2 a)

end Change

/-! ## Sweeps -/

/-- `list(range(first, last - 1, -1))` (convergence.py 117-119). -/
def rangeDown (bounds : ℤ × ℤ) : List ℤ := (List.range (bounds.1 - bounds.2 + 1).toNat).map fun k : ℕ => bounds.1 - k

/-- `list(range(first, last + 1))` (convergence.py 120-122). -/
def rangeUp (bounds : ℤ × ℤ) : List ℤ := (List.range (bounds.2 + 1 - bounds.1).toNat).map fun k : ℕ => bounds.1 + k

/-- The nested loops (convergence.py 148-154, 643-667): every setting `k` is evaluated, its result is stored in the array, and the loops are left with
the first verdict. -/
def sweep {κ ρ ο : Type} [DecidableEq κ] (iterate : κ → Except Err ρ)
    (verdict : (κ → ρ) → κ → Except Err (Option ο)) : List κ → (κ → ρ) → Except Err (Option ο)
  | [], _ => .ok none
  | k :: rest, table =>
    match iterate k with
    | .error e => .error e
    | .ok r =>
      match verdict (Function.update table k r) k with
      | .error e => .error e
      | .ok (some o) => .ok (some o)
      | .ok none => sweep iterate verdict rest (Function.update table k r)

/-- The larger of the force and moment changes between two iterations, over all airplanes (convergence.py 322-340,
358-376). A result lists the norms of force and moment coefficients of every airplane. -/
def steadyChange (these last : List (ℝ × ℝ)) : Except Err Change := do
  let force ← Change.maxOf (List.zipWith Change.between (these.map Prod.fst) (last.map Prod.fst))
  let moment ← Change.maxOf (List.zipWith Change.between (these.map Prod.snd) (last.map Prod.snd))
  pure (Change.max2 force moment)

/-- The changes are infinite at the first value of a dimension (convergence.py 316-321, 357). -/
def unlessFirst (index : ℕ) (change : Except Err Change) : Except Err Change :=
  if 0 < index then change else .ok .inf

/-- The tests and the converged values if they pass (convergence.py 389-466). -/
def steadyDecision (ratios chords : List ℤ) (criteria : ℝ) (k : ℕ × ℕ) (ratioChange chordChange : Change) :
    Option (ℤ × ℤ) :=
  let ratioSaturated := decide (ratios.getD k.1 0 = 1)
  let singleRatio := decide (ratios.length = 1)
  let singleChord := decide (chords.length = 1)
  let ratioConverged := ratioChange.below criteria
  let chordConverged := chordChange.below criteria
  let ratioPassed := ratioConverged || singleRatio || ratioSaturated
  let chordPassed := chordConverged || singleChord
  let i := if singleRatio then k.1 else if ratioConverged then k.1 - 1 else k.1
  let j := if singleChord then k.2 else k.2 - 1
  if ratioPassed && chordPassed then some (ratios.getD i 0, chords.getD j 0) else none

/-- The end of an iteration (convergence.py 306-466): the changes, the tests, and the converged values if they pass. -/
def steadyVerdict (ratios chords : List ℤ) (criteria : ℝ) (table : ℕ × ℕ → List (ℝ × ℝ)) (k : ℕ × ℕ) :
    Except Err (Option (ℤ × ℤ)) := do
  let ratioChange ← unlessFirst k.1 (steadyChange (table k) (table (k.1 - 1, k.2)))
  let chordChange ← unlessFirst k.2 (steadyChange (table k) (table (k.1, k.2 - 1)))
  pure (steadyDecision ratios chords criteria k ratioChange chordChange)

/-- The settings in the order of the loops (convergence.py 148-154). -/
def steadySettings (ratios chords : List ℤ) : List (ℕ × ℕ) :=
  (List.range ratios.length).flatMap fun i => (List.range chords.length).map fun j => (i, j)

/-- The loops of `analyze_steady_convergence` (convergence.py 124-472), given what an iteration computes; `none` is
`[None, None]`. The arrays are zero at first, with one entry per airplane. -/
def steadySweep (ratios chords : List ℤ) (criteria : ℝ) (airplanes : ℕ)
    (iterate : ℤ → ℤ → Except Err (List (ℝ × ℝ))) : Except Err (Option (ℤ × ℤ)) :=
  sweep (fun k : ℕ × ℕ => iterate (ratios.getD k.1 0) (chords.getD k.2 0)) (steadyVerdict ratios chords criteria)
    (steadySettings ratios chords) fun _ => List.replicate airplanes (0, 0)

/-! ## Remeshing -/

/-- Python's `round` of a float (convergence.py 202, 773): to nearest, ties to even. -/
def pyRound (x : ℝ) : ℤ :=
  open Classical in
  if Int.fract x < 1 / 2 then ⌊x⌋
  else if 1 / 2 < Int.fract x then ⌊x⌋ + 1
  else if Even ⌊x⌋ then ⌊x⌋ else ⌊x⌋ + 1

open Classical in
/-- The number of spanwise panels of a wing section (convergence.py 181-210, 745-783). A negative count makes the
meshing raise; here it raises at once. -/
def spanwiseCount (length rootChord tipChord : ℝ) (chordwise ratio : ℤ) : Except Err ℕ :=
  if length = 0 then .error .zeroDivisionError
  else
    let mean := length * (rootChord + tipChord) / 2 / length
    if mean * ratio = 0 then .error .zeroDivisionError
    else
      let count := pyRound (length * chordwise / (mean * ratio))
      if count < 0 then .error .valueError else .ok count.toNat

/-- The copy of one cross section (convergence.py 176-235, 736-820); `next` is the next cross section. The unit normal
vector is not copied. `renew` is the creation of a new airfoil from the attributes of the given one. -/
def remeshSection (renew : Airfoil → Except Err Airfoil) (chordwise ratio : ℤ) (s : WingCrossSection)
    (next : Option WingCrossSection) : Except Err WingCrossSection := do
  let count ← match next with
    | none => pure 0
    | some t => spanwiseCount (t.leadingEdge.y - s.leadingEdge.y) s.chord t.chord chordwise ratio
  let airfoil ← renew s.airfoil
  WingCrossSection.create airfoil (leadingEdge := s.leadingEdge) (chord := s.chord) (twist := s.twist)
    (controlSurfaceType := s.controlSurfaceType) (hinge := s.hinge) (deflection := s.deflection)
    (numSpanwisePanels := count) (spanwiseSpacing := s.spanwiseSpacing)

/-- The loop over the cross sections (convergence.py 171-235). -/
def remeshSections (renew : Airfoil → Except Err Airfoil) (chordwise ratio : ℤ) :
    List WingCrossSection → Except Err (List WingCrossSection)
  | [] => .ok []
  | s :: rest => do
    let t ← remeshSection renew chordwise ratio s rest.head?
    let ts ← remeshSections renew chordwise ratio rest
    pure (t :: ts)

/-- `geometry.Wing(...)` with the changed values (convergence.py 237-250, 855-868). The unit normal and chordwise
vectors are not copied. A negative number of panels makes the meshing raise; here it raises at once. -/
def remeshWing (w : Wing) (sections : List WingCrossSection) (chordwise : ℤ) : Except Err Wing :=
  if chordwise < 0 then .error .valueError
  else Wing.create sections (leadingEdge := w.spec.leadingEdge) (symmetric := w.spec.symmetric)
    (numChordwisePanels := chordwise.toNat) (chordwiseSpacing := w.spec.chordwiseSpacing)

/-- The copy of one airplane (convergence.py 163-267). -/
def remeshAirplane (renew : Airfoil → Except Err Airfoil) (chordwise ratio : ℤ) (a : Airplane) :
    Except Err Airplane := do
  let wings ← a.wings.mapM fun w => do
    let sections ← remeshSections renew chordwise ratio w.sections
    remeshWing w sections chordwise
  Airplane.create wings (xyzRef := a.xyzRef) (weight := a.weight)

/-- The loads computed by the chosen solver (convergence.py 274-293). -/
def solveSteady (solverType : String) (problem : SteadyProblem) : Except Err (List AirplaneLoads) :=
  if solverType = "steady horseshoe vortex lattice method" then do
    let s ← (HorseshoeSolver.create problem).run
    pure s.loads
  else if solverType = "steady ring vortex lattice method" then do
    let s ← (RingSolver.create problem).run
    pure s.loads
  else .error .exception

/-- One iteration up to its results (convergence.py 158-301). -/
def steadyIteration (renew : Airfoil → Except Err Airfoil) (ref : SteadyProblem) (solverType : String)
    (ratio chordwise : ℤ) : Except Err (List (ℝ × ℝ)) := do
  let airplanes ← ref.airplanes.mapM (remeshAirplane renew chordwise ratio)
  let loads ← solveSteady solverType { airplanes, operatingPoint := ref.operatingPoint }
  pure (loads.map fun l => (l.forceCoefficients.norm, l.momentCoefficients.norm))

/-- `analyze_steady_convergence` (convergence.py 36-472). -/
def analyzeSteadyConvergence (renew : Airfoil → Except Err Airfoil) (ref : SteadyProblem) (solverType : String)
    (ratioBounds : ℤ × ℤ := (4, 1)) (chordBounds : ℤ × ℤ := (3, 12)) (criteria : ℝ := 5) :
    Except Err (Option (ℤ × ℤ)) :=
  steadySweep (rangeDown ratioBounds) (rangeUp chordBounds) criteria ref.airplanes.length
    (steadyIteration renew ref solverType)

/-! ## Unsteady convergence -/

/-- The indices of a setting (convergence.py 644-667): wake state, wake length, panel aspect ratio, number of chordwise panels. -/
structure Setting where
  wake : ℕ
  length : ℕ
  ratio : ℕ
  chord : ℕ
  deriving DecidableEq

/-- The values swept over (convergence.py 592-610). -/
structure SweptValues where
  wakes : List Bool
  lengths : List ℤ
  ratios : List ℤ
  chords : List ℤ

/-- The largest change between two iterations (convergence.py 1025-1035, 1049-1059, 1074-1084, 1098-1108). A result lists the selected
coefficients of every airplane. -/
def unsteadyChange (these last : List (List ℝ)) : Except Err Change :=
  Change.npMaxOf (List.zipWith (List.zipWith Change.between) these last).flatten

/-- The tests and the converged values if they pass (convergence.py 1121-1268). -/
def unsteadyDecision (v : SweptValues) (criteria : ℝ) (k : Setting)
    (wakeChange lengthChange ratioChange chordChange : Change) : Option (Bool × ℤ × ℤ × ℤ) :=
  let wakeSaturated := !(v.wakes.getD k.wake true)
  let ratioSaturated := decide (v.ratios.getD k.ratio 0 = 1)
  let singleWake := decide (v.wakes.length = 1)
  let singleLength := decide (v.lengths.length = 1)
  let singleRatio := decide (v.ratios.length = 1)
  let singleChord := decide (v.chords.length = 1)
  let wakeConverged := wakeChange.below criteria
  let lengthConverged := lengthChange.below criteria
  let ratioConverged := ratioChange.below criteria
  let chordConverged := chordChange.below criteria
  let wakePassed := wakeConverged || singleWake || wakeSaturated
  let lengthPassed := lengthConverged || singleLength
  let ratioPassed := ratioConverged || singleRatio || ratioSaturated
  let chordPassed := chordConverged || singleChord
  let w := if singleWake then k.wake else if wakeConverged then k.wake - 1 else k.wake
  let l := if singleLength then k.length else k.length - 1
  let i := if singleRatio then k.ratio else if ratioConverged then k.ratio - 1 else k.ratio
  let j := if singleChord then k.chord else k.chord - 1
  if wakePassed && lengthPassed && ratioPassed && chordPassed then
    some (v.wakes.getD w true, v.lengths.getD l 0, v.ratios.getD i 0, v.chords.getD j 0)
  else none

/-- The end of an iteration (convergence.py 1006-1268). -/
def unsteadyVerdict (v : SweptValues) (criteria : ℝ) (table : Setting → List (List ℝ)) (k : Setting) :
    Except Err (Option (Bool × ℤ × ℤ × ℤ)) := do
  let wakeChange ← unlessFirst k.wake (unsteadyChange (table k) (table { k with wake := k.wake - 1 }))
  let lengthChange ← unlessFirst k.length (unsteadyChange (table k) (table { k with length := k.length - 1 }))
  let ratioChange ← unlessFirst k.ratio (unsteadyChange (table k) (table { k with ratio := k.ratio - 1 }))
  let chordChange ← unlessFirst k.chord (unsteadyChange (table k) (table { k with chord := k.chord - 1 }))
  pure (unsteadyDecision v criteria k wakeChange lengthChange ratioChange chordChange)

/-- The settings in the order of the loops (convergence.py 643-667). -/
def unsteadySettings (v : SweptValues) : List Setting :=
  (List.range v.wakes.length).flatMap fun w => (List.range v.lengths.length).flatMap fun l =>
    (List.range v.ratios.length).flatMap fun i => (List.range v.chords.length).map fun j => ⟨w, l, i, j⟩

/-- The loops of `analyze_unsteady_convergence` (convergence.py 612-1274), given what an iteration computes; `none` is
`[None, None, None, None]`. -/
def unsteadySweep (v : SweptValues) (criteria : ℝ) (airplanes coefficients : ℕ)
    (iterate : Bool → ℤ → ℤ → ℤ → Except Err (List (List ℝ))) : Except Err (Option (Bool × ℤ × ℤ × ℤ)) :=
  sweep (fun k : Setting => iterate (v.wakes.getD k.wake true) (v.lengths.getD k.length 0) (v.ratios.getD k.ratio 0)
      (v.chords.getD k.chord 0)) (unsteadyVerdict v criteria) (unsteadySettings v)
    fun _ => List.replicate airplanes (List.replicate coefficients 0)

/-- The copy of one wing movement (convergence.py 713-896). Its cross sections are those of the movements, not those of
the base wing. -/
def remeshWingMovement (renew : Airfoil → Except Err Airfoil) (chordwise ratio : ℤ) (m : WingMovement) :
    Except Err WingMovement := do
  let sections ← remeshSections renew chordwise ratio (m.sectionMovements.map (·.base))
  let base ← remeshWing m.base sections chordwise
  -- the new wing sets the chordwise vector of the very cross sections the movements refer to
  pure { m with base, sectionMovements := List.zipWith (fun s t => { s with base := t }) m.sectionMovements base.sections }

/-- The copy of one airplane movement (convergence.py 686-937). -/
def remeshAirplaneMovement (renew : Airfoil → Except Err Airfoil) (chordwise ratio : ℤ) (m : AirplaneMovement) :
    Except Err AirplaneMovement := do
  let wings ← m.wingMovements.mapM (remeshWingMovement renew chordwise ratio)
  let base ← Airplane.create (wings.map (·.base)) (xyzRef := m.base.xyzRef) (weight := m.base.weight)
  pure { m with base, wingMovements := wings }

/-- `Movement(...)` with the wake length given in chords or in cycles (convergence.py 939-951). A negative length
would give a negative number of steps; here it raises at once. -/
def lengthenedMovement (static : Bool) (airplanes : List AirplaneMovement) (op : OperatingPointMovement) (length : ℤ) :
    Except Err Movement :=
  if length < 0 then .error .valueError
  else if static then Movement.create airplanes op (numChords := some length.toNat)
  else Movement.create airplanes op (numCycles := some length.toNat)

/-- The selected coefficients of one airplane (convergence.py 980-1004): a mask of another length than six is an
`IndexError`. -/
def selectCoefficients (mask : List Bool) (force moment : V3) : Except Err (List ℝ) :=
  if mask.length ≠ 6 then .error .indexError
  else .ok ((List.zip mask [force.x, force.y, force.z, moment.x, moment.y, moment.z]).filterMap fun t =>
    if t.1 then some t.2 else none)

/-- The results of an iteration (convergence.py 973-1004). -/
def selectedResults (mask : List Bool) (airplanes : ℕ) (results : ResultLists) : Except Err (List (List ℝ)) :=
  (List.range airplanes).mapM fun i =>
    match results.forceCoefficients[i]?, results.momentCoefficients[i]? with
    | some f, some m => selectCoefficients mask f m
    | _, _ => .error .indexError

/-- One iteration up to its results (convergence.py 680-1004). -/
def unsteadyIteration (renew : Airfoil → Except Err Airfoil) (ref : Movement) (static : Bool) (mask : List Bool)
    (wake : Bool) (length ratio chordwise : ℤ) : Except Err (List (List ℝ)) := do
  let airplanes ← ref.airplaneMovements.mapM (remeshAirplaneMovement renew chordwise ratio)
  let movement ← lengthenedMovement static airplanes ref.operatingPointMovement length
  let problem ← UnsteadyProblem.create movement true
  let solver ← UnsteadySolver.create problem
  let solver ← solver.run wake false
  selectedResults mask airplanes.length (if static then solver.final else solver.finalRms)

/-- `wake_list` (convergence.py 592-596). -/
def wakeList (prescribed free : Bool) : List Bool :=
  (if prescribed then [true] else []) ++ (if free then [false] else [])

open Classical in
/-- `analyze_unsteady_convergence` (convergence.py 476-1274) of a problem with the given movement. -/
def analyzeUnsteadyConvergence (renew : Airfoil → Except Err Airfoil) (ref : Movement) (prescribed free : Bool := true)
    (cycleBounds : ℤ × ℤ := (2, 4)) (wakeChordBounds : ℤ × ℤ := (3, 7)) (ratioBounds : ℤ × ℤ := (4, 1))
    (chordBounds : ℤ × ℤ := (3, 12)) (mask : List Bool := [true, true, true, true, true, true]) (criteria : ℝ := 5) :
    Except Err (Option (Bool × ℤ × ℤ × ℤ)) := do
  let period ← ref.maxPeriod
  let static := decide (period = 0)
  unsteadySweep
    { wakes := wakeList prescribed free, lengths := rangeUp (if static then wakeChordBounds else cycleBounds)
      ratios := rangeDown ratioBounds, chords := rangeUp chordBounds }
    criteria ref.airplaneMovements.length (mask.count true) (unsteadyIteration renew ref static mask)

end

end Ptera
