import Verif.Spec.Nearby
import Verif.Spec.FlowField

/-! Specification vocabulary: unsteady problems that differ little from each other, and runs with results that do. -/

namespace Ptera

/-- Two unsteady problems with the same steps whose time steps, and whose airplanes, flow and viscosity at every step,
differ by less than `δ`. -/
structure UnsteadyProblem.Near (δ : ℝ) (p q : UnsteadyProblem) : Prop where
  numSteps : q.numSteps = p.numSteps
  firstResultsStep : q.firstResultsStep = p.firstResultsStep
  deltaTime : |q.deltaTime - p.deltaTime| < δ
  steps : ∀ k < p.numSteps,
    SteadyProblem.Near δ ⟨p.airplanesAt k, p.operatingPointAt k⟩ ⟨q.airplanesAt k, q.operatingPointAt k⟩
  nu : ∀ k < p.numSteps, |(q.operatingPointAt k).nu - (p.operatingPointAt k).nu| < δ

/-- `x` is a corner of the recorded wake ring. -/
def WakeSlot.HasCorner (w : WakeSlot) (x : V3) : Prop :=
  x = w.frontLeft ∨ x = w.frontRight ∨ x = w.backLeft ∨ x = w.backRight

/-- The points at which a run computes the velocity at step `k`: the collocation points, the middles of the front, left
and right sides of the rings on the panels, and, unless the wake is prescribed, the corners of the wake rings (at the
first step, when there are none, the front corners of the first ones). -/
inductive EvaluatedAt (p : UnsteadyProblem) (prescribed : Bool) (s : UnsteadySolver) (k : ℕ) : V3 → Prop
  | collocation {r panel} : panelAt (p.airplanesAt k) r = some panel →
      EvaluatedAt p prescribed s k panel.collocationPoint
  | middle {r panel v x} : panelAt (p.airplanesAt k) r = some panel → (s.panels k r).ring = some v →
      (x = v.frontMiddle ∨ x = v.leftMiddle ∨ x = v.rightMiddle) → EvaluatedAt p prescribed s k x
  | wake {l w x} : prescribed = false → s.wakeArrays[k]? = some l → w ∈ l → w.HasCorner x →
      EvaluatedAt p prescribed s k x
  | firstWake {l w x} : prescribed = false → k = 0 → s.wakeArrays[1]? = some l → w ∈ l →
      (x = w.frontLeft ∨ x = w.frontRight) → EvaluatedAt p prescribed s k x

/-- Step `k` of the finished run `s'` shows what step `k` of the finished run `s` of problem `p` shows, up to `ε`: corners
and strengths of the rings on the panels; corners, strengths and ages of the wake rings; and, from the first step with
results on, the loads of the panels and the totals and coefficients of the airplanes (the coefficients unless they
divide by zero). -/
structure StepNear (p : UnsteadyProblem) (ε : ℝ) (s s' : UnsteadySolver) (k : ℕ) : Prop where
  rings : ∀ r panel, panelAt (p.airplanesAt k) r = some panel → ∃ v v', (s.panels k r).ring = some v ∧
    (s'.panels k r).ring = some v' ∧ (v'.frontLeft - v.frontLeft).norm < ε ∧ (v'.frontRight - v.frontRight).norm < ε ∧
    (v'.backLeft - v.backLeft).norm < ε ∧ (v'.backRight - v.backRight).norm < ε ∧ |v'.strength - v.strength| < ε
  wake : ∀ q ∈ wakePlaces p k, ∃ w w', wakeRecord s k q = some w ∧ wakeRecord s' k q = some w' ∧
    (w'.frontLeft - w.frontLeft).norm < ε ∧ (w'.frontRight - w.frontRight).norm < ε ∧
    (w'.backLeft - w.backLeft).norm < ε ∧ (w'.backRight - w.backRight).norm < ε ∧ |w'.strength - w.strength| < ε ∧
    |w'.age - w.age| < ε
  panels : p.firstResultsStep ≤ k → ∀ r panel, panelAt (p.airplanesAt k) r = some panel → ∃ L L',
    (s.panels k r).loads = some L ∧ (s'.panels k r).loads = some L' ∧
    (L'.forceWind - L.forceWind).norm < ε ∧ (L'.momentWind - L.momentWind).norm < ε
  totals : p.firstResultsStep ≤ k → ∀ (a : ℕ) A, (p.airplanesAt k)[a]? = some A → ∃ L L' : AirplaneLoads,
    (s.loads k)[a]? = some L ∧ (s'.loads k)[a]? = some L' ∧
    (L'.forceWind - L.forceWind).norm < ε ∧ (L'.momentWind - L.momentWind).norm < ε ∧
    ((p.operatingPointAt k).density ≠ 0 → (p.operatingPointAt k).velocity ≠ 0 → A.sRef ≠ 0 → A.cRef ≠ 0 → A.bRef ≠ 0 →
      (L'.forceCoefficients - L.forceCoefficients).norm < ε ∧
      (L'.momentCoefficients - L.momentCoefficients).norm < ε)

end Ptera
