import Verif.Model.SteadyHorseshoe
import Verif.Model.Unsteady

/-!
# Model of `pterasoftware/trim.py`

The two optimizers of scipy are not modelled: they are arbitrary strategies that choose the next point from the values
seen so far. `StopIteration` raised by the objective passes through them unchanged (trusted). Logging is left out.
A float that may be NaN is an `Option ℝ`, NaN being `none`.
-/

namespace Ptera

noncomputable section

/-- What one call of an objective function (trim.py 93-160, 244-320) does besides changing the state: it raises `StopIteration`, or it returns
a value (`none`: infinite or NaN). -/
inductive Evaluation where
  | stop
  | value (objective : Option ℝ)

/-- A call of `scipy.optimize.minimize` or `scipy.optimize.dual_annealing` (trim.py 168-174, 183-192, 326-332,
341-350): which point it evaluates next, given the points evaluated so far and their values; `none` when it returns.
-/
abbrev Optimizer (α : Type) := List (α × Option ℝ) → Option α

/-- An optimizer at work on an objective (trim.py 164-200, 322-358), for at most `calls` evaluations. `true`: the objective raised
`StopIteration`; `false`: the optimizer returned. Any other exception passes through. -/
def optimize {α σ : Type} (objective : σ → α → Except Err (σ × Evaluation)) (choose : Optimizer α) :
    ℕ → List (α × Option ℝ) → σ → Except Err (σ × Bool)
  | 0, _, state => .ok (state, false)
  | calls + 1, seen, state =>
    match choose seen with
    | none => .ok (state, false)
    | some x =>
      match objective state x with
      | .error e => .error e
      | .ok (state, .stop) => .ok (state, true)
      | .ok (state, .value o) => optimize objective choose calls (seen ++ [(x, o)]) state

/-! ## Steady trim -/

/-- The arguments of the objective (trim.py 99). -/
structure TrimArguments where
  velocity : ℝ
  alpha : ℝ
  beta : ℝ
  externalThrust : ℝ

/-- Lower and upper bounds of each argument (trim.py 42-45). -/
structure TrimBounds where
  velocity : ℝ × ℝ
  alpha : ℝ × ℝ
  beta : ℝ × ℝ
  externalThrust : ℝ × ℝ

/-- What `analyze_steady_trim` (trim.py 40-202) works on: the problem with its mutable panels and airplanes, and
`current_arguments`. -/
structure TrimState where
  problem : SteadyProblem
  heap : PanelHeap
  loads : List AirplaneLoads
  current : List (Option ℝ)

/-- A list of NaNs (trim.py 90, 157, 201, 241, 317, 359). -/
def nans (n : ℕ) : List (Option ℝ) := List.replicate n none

open Classical in
/-- The value of the objective (trim.py 108-130). Division by a zero dynamic pressure or reference dimension gives an
infinity or a NaN. -/
def imbalance (op : OperatingPoint) (airplane : Airplane) (loads : AirplaneLoads) (weight thrust : ℝ) : Option ℝ :=
  let q := op.dynamicPressure
  let external : V3 := ⟨thrust / q / airplane.sRef, 0 / q / airplane.sRef, weight / q / airplane.sRef⟩
  if q = 0 ∨ airplane.sRef = 0 ∨ airplane.cRef = 0 ∨ airplane.bRef = 0 then none
  else some ((|(loads.forceCoefficients - external).norm| + |loads.momentCoefficients.norm|) / 2)

open Classical in
/-- `objective < objective_cut_off` (trim.py 153): false of NaN and infinity. -/
def belowCutOff (objective : Option ℝ) (cutOff : ℝ) : Bool :=
  match objective with
  | none => false
  | some o => decide (o < cutOff)

/-- The part of the objective after the solver's run (trim.py 120-159). -/
def steadyOutcome (cutOff weight : ℝ) (problem : SteadyProblem) (x : TrimArguments) (solver : HorseshoeSolver) :
    Except Err (TrimState × Evaluation) :=
  match problem.airplanes, solver.loads with
  | airplane :: _, loads :: _ =>
    let objective := imbalance problem.operatingPoint airplane loads weight x.externalThrust
    let arguments := [some x.velocity, some x.alpha, some x.beta, some x.externalThrust]
    if belowCutOff objective cutOff then
      .ok ({ problem, heap := solver.heap, loads := solver.loads, current := arguments }, .stop)
    else
      .ok ({ problem, heap := solver.heap, loads := solver.loads, current := nans 4 }, .value objective)
  | _, _ => .error .indexError

/-- `objective_function` of `analyze_steady_trim` (trim.py 93-159). The external thrust of the operating point is not
written. -/
def steadyObjective (cutOff weight : ℝ) (st : TrimState) (x : TrimArguments) : Except Err (TrimState × Evaluation) := do
  let problem := { st.problem with operatingPoint :=
    { st.problem.operatingPoint with velocity := x.velocity, alpha := x.alpha, beta := x.beta } }
  let solver ← (HorseshoeSolver.create problem st.heap st.loads).run
  steadyOutcome cutOff weight problem x solver

open Classical in
/-- `x < bounds[0] or x > bounds[1]` (trim.py 68, 73, 77, 82). -/
def outside (x : ℝ) (bounds : ℝ × ℝ) : Bool := decide (x < bounds.1 ∨ x > bounds.2)

/-- `analyze_steady_trim` (trim.py 40-201): the returned list and the state it leaves. `first` and `second` are the
local and the global search, with the numbers of evaluations they make at most. That there are several airplanes is
only logged (57-60). -/
def analyzeSteadyTrim (problem : SteadyProblem) (heap : PanelHeap) (loads : List AirplaneLoads) (bounds : TrimBounds)
    (cutOff : ℝ) (first second : Optimizer TrimArguments) (calls₁ calls₂ : ℕ) :
    Except Err (List (Option ℝ) × TrimState) :=
  match problem.airplanes with
  | [] => .error .indexError
  | airplane :: _ =>
    let op := problem.operatingPoint
    if outside op.velocity bounds.velocity then .error .exception
    else if outside op.alpha bounds.alpha then .error .exception
    else if outside op.beta bounds.beta then .error .exception
    else if outside op.externalThrust bounds.externalThrust then .error .exception
    else do
      let objective := steadyObjective cutOff airplane.weight
      let (st, stopped) ← optimize objective first calls₁ [] { problem, heap, loads, current := nans 4 }
      if stopped then pure (st.current, st)
      else
        let (st, stopped) ← optimize objective second calls₂ [] st
        if stopped then pure (st.current, st) else pure (nans 4, st)

/-! ## Unsteady trim -/

/-- The names of the attributes of an `UnsteadyProblem` object (problems.py 68-71, 74, 82-87, 93-96, 101-120, 123).
No other code gives it attributes. -/
def unsteadyProblemAttributes : List String :=
  ["movement", "num_steps", "delta_time", "only_final_results", "max_period", "first_averaging_step",
   "first_results_step", "final_near_field_forces_wind_axes", "final_near_field_force_coefficients_wind_axes",
   "final_near_field_moments_wind_axes", "final_near_field_moment_coefficients_wind_axes",
   "final_mean_near_field_forces_wind_axes", "final_mean_near_field_force_coefficients_wind_axes",
   "final_mean_near_field_moments_wind_axes", "final_mean_near_field_moment_coefficients_wind_axes",
   "final_rms_near_field_forces_wind_axes", "final_rms_near_field_force_coefficients_wind_axes",
   "final_rms_near_field_moments_wind_axes", "final_rms_near_field_moment_coefficients_wind_axes",
   "steady_problems"]

/-- Reading one of the result lists of a problem by name: the attributes of problems.py 101-120 hold what the solver
appended; the name of an attribute that is not a result list is a `TypeError` when coefficients are subtracted from it
(the theorems only use the last case); any other name is an `AttributeError`. -/
def readResults (s : UnsteadySolver) (name : String) : Except Err (List V3) :=
  if name = "final_near_field_force_coefficients_wind_axes" then .ok s.final.forceCoefficients
  else if name = "final_near_field_moment_coefficients_wind_axes" then .ok s.final.momentCoefficients
  else if name = "final_mean_near_field_force_coefficients_wind_axes" then .ok s.finalMean.forceCoefficients
  else if name = "final_mean_near_field_moment_coefficients_wind_axes" then .ok s.finalMean.momentCoefficients
  else if name = "final_rms_near_field_force_coefficients_wind_axes" then .ok s.finalRms.forceCoefficients
  else if name = "final_rms_near_field_moment_coefficients_wind_axes" then .ok s.finalRms.momentCoefficients
  else if name ∈ unsteadyProblemAttributes then .error .typeError
  else .error .attributeError

/-- The arguments of the objective (trim.py 250). -/
structure UnsteadyTrimArguments where
  velocity : ℝ
  alpha : ℝ
  beta : ℝ

/-- What `analyze_unsteady_trim` (trim.py 205-359) works on: the operating point, which it changes, and `current_arguments`. The
airplanes that are solved are created anew by every evaluation (`Movement.create`). -/
structure UnsteadyTrimState where
  operatingPoint : OperatingPoint
  current : List (Option ℝ)

open Classical in
/-- The value of the objective (trim.py 259-263, 293-298). The arrays of coefficients have one row per airplane; there
is one airplane. -/
def unsteadyImbalance (op : OperatingPoint) (airplane : Airplane) (force moment : List V3) : Option ℝ :=
  let q := op.dynamicPressure
  let external : V3 := ⟨0 / q / airplane.sRef, 0 / q / airplane.sRef, airplane.weight / q / airplane.sRef⟩
  if q = 0 ∨ airplane.sRef = 0 ∨ airplane.cRef = 0 ∨ airplane.bRef = 0 then none
  else some ((|(force.headD 0 - external).norm| + |(moment.headD 0).norm|) / 2)

/-- The solver run inside the objective (trim.py 265-284): a movement of the airplane with the operating point held
fixed, and the default time step and number of steps. -/
def unsteadyTrimSolver (airplane : AirplaneMovement) (op : OperatingPoint) : Except Err UnsteadySolver := do
  let movement ← Movement.create [airplane] { base := op, velocity := {} }
  let problem ← UnsteadyProblem.create movement true
  let solver ← UnsteadySolver.create problem
  solver.run

/-- `objective_function` of `analyze_unsteady_trim` (trim.py 244-319). -/
def unsteadyObjective (cutOff : ℝ) (airplane : AirplaneMovement) (st : UnsteadyTrimState) (x : UnsteadyTrimArguments) :
    Except Err (UnsteadyTrimState × Evaluation) := do
  let op := { st.operatingPoint with velocity := x.velocity, alpha := x.alpha, beta := x.beta }
  let solver ← unsteadyTrimSolver airplane op
  let force ← readResults solver "final_total_near_field_force_coefficients_wind_axes"
  let moment ← readResults solver "final_total_near_field_moment_coefficients_wind_axes"
  let objective := unsteadyImbalance op airplane.base force moment
  if belowCutOff objective cutOff then
    pure ({ operatingPoint := op, current := [some x.velocity, some x.alpha, some x.beta] }, .stop)
  else
    pure ({ operatingPoint := op, current := nans 4 }, .value objective)

/-- `analyze_unsteady_trim` (trim.py 205-359): the returned list and the operating point it leaves. Values outside of
the bounds are only logged (227-239), so the bounds have no influence except through the optimizers. -/
def analyzeUnsteadyTrim (airplane : AirplaneMovement) (op : OperatingPoint) (cutOff : ℝ)
    (first second : Optimizer UnsteadyTrimArguments) (calls₁ calls₂ : ℕ) :
    Except Err (List (Option ℝ) × OperatingPoint) := do
  let objective := unsteadyObjective cutOff airplane
  let (st, stopped) ← optimize objective first calls₁ [] { operatingPoint := op, current := nans 3 }
  if stopped then pure (st.current, st.operatingPoint)
  else
    let (st, stopped) ← optimize objective second calls₂ [] st
    if stopped then pure (st.current, st.operatingPoint) else pure (nans 3, st.operatingPoint)

end

end Ptera
