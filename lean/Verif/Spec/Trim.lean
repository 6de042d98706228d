import Verif.Model.Trim

/-!
# What a trim analysis should do (C48)
-/

namespace Ptera

/-- The problem flown at the given velocity, angle of attack and sideslip angle. -/
def SteadyProblem.flownAt (p : SteadyProblem) (x : TrimArguments) : SteadyProblem :=
  { p with operatingPoint := { p.operatingPoint with velocity := x.velocity, alpha := x.alpha, beta := x.beta } }

/-- Half the sum of the norms of the net force coefficients and of the moment coefficients of the first airplane, when
a new solver solves the problem at these arguments; the thrust acts against drag, the weight against lift. No number
(`none`) when the dynamic pressure or a reference dimension is zero. -/
def HasImbalance (problem : SteadyProblem) (x : TrimArguments) (imbalance : Option ℝ) : Prop :=
  ∃ (solver : HorseshoeSolver) (airplane : Airplane) (loads : AirplaneLoads),
    (HorseshoeSolver.create (problem.flownAt x)).run = .ok solver ∧
    problem.airplanes[0]? = some airplane ∧ solver.loads[0]? = some loads ∧
    let q := problem.operatingPoint.density * x.velocity ^ 2 / 2
    let undefined := q = 0 ∨ airplane.sRef = 0 ∨ airplane.cRef = 0 ∨ airplane.bRef = 0
    let net : V3 := loads.forceCoefficients
      - ⟨x.externalThrust / (q * airplane.sRef), 0, airplane.weight / (q * airplane.sRef)⟩
    (undefined → imbalance = none) ∧
    (¬ undefined → imbalance = some ((net.norm + loads.momentCoefficients.norm) / 2))

/-- The points an optimizer evaluates, with the values it is given: each point is its choice after seeing the earlier
ones. -/
def Searched {α : Type} (choose : Optimizer α) (value : α → Option ℝ → Prop) (h : List (α × Option ℝ)) : Prop :=
  ∀ (i : ℕ) (x : α) (o : Option ℝ), h[i]? = some (x, o) → choose (h.take i) = some x ∧ value x o

/-- The value is a number below the cutoff. -/
def Below (o : Option ℝ) (cutOff : ℝ) : Prop := ∃ v, o = some v ∧ v < cutOff

/-- The optimizer has finished: it returns, or has used up its evaluations. -/
def Finished {α : Type} (choose : Optimizer α) (calls : ℕ) (h : List (α × Option ℝ)) : Prop :=
  choose h = none ∨ h.length = calls

end Ptera
