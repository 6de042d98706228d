import Verif.Spec.FarApart
import Verif.Spec.NearbyUnsteady

/-! Specification vocabulary: unsteady problems with one airplane each, put together. -/

namespace Ptera

/-- The unsteady problem `q` has the airplanes of the problems `P 0, …, P (m - 1)`, which have one airplane each, in the
same flow at the same times, airplane `i` moved by `d i` at every step. -/
structure Assembled (m : ℕ) (P : ℕ → UnsteadyProblem) (d : ℕ → V3) (q : UnsteadyProblem) : Prop where
  numSteps : ∀ i < m, (P i).numSteps = q.numSteps
  deltaTime : ∀ i < m, (P i).deltaTime = q.deltaTime
  flow : ∀ i < m, ∀ k < q.numSteps, (P i).operatingPointAt k = q.operatingPointAt k
  count : ∀ k < q.numSteps, (q.airplanesAt k).length = m
  airplanes : ∀ i < m, ∀ k < q.numSteps, ∃ a a', (P i).airplanesAt k = [a] ∧ (q.airplanesAt k)[i]? = some a' ∧
    Airplane.Moved M3.one (d i) a a'

/-- The same panel of the airplane with number `i`. -/
def PanelRef.ofAirplane (r : PanelRef) (i : ℕ) : PanelRef := { r with airplane := i }

/-- The same place behind the airplane with number `i`. -/
def WakePlace.ofAirplane (d : WakePlace) (i : ℕ) : WakePlace := { d with airplane := i }

/-- Step `k` of the finished run `s'` of problem `p'` shows of airplane `i` and its wake what step `k` of the finished
run `s` of problem `p` shows of its only airplane, moved by `t`, up to `ε`: the rings on the panels; corners, strengths
and ages of the wake rings; and, at steps with results, the loads of the panels and the totals and coefficients of the
airplane. -/
structure AirplaneStepNear (p p' : UnsteadyProblem) (i : ℕ) (t : V3) (ε : ℝ) (s s' : UnsteadySolver) (k : ℕ) :
    Prop where
  rings : ∀ r panel, panelAt (p.airplanesAt k) r = some panel → ∃ v v', (s.panels k r).ring = some v ∧
    (s'.panels k (r.ofAirplane i)).ring = some v' ∧ v'.frontLeft = v.frontLeft + t ∧ v'.frontRight = v.frontRight + t ∧
    v'.backLeft = v.backLeft + t ∧ v'.backRight = v.backRight + t ∧ |v'.strength - v.strength| < ε
  wake : ∀ d ∈ wakePlaces p k, ∃ w w', wakeRecord s k d = some w ∧ wakeRecord s' k (d.ofAirplane i) = some w' ∧
    (w'.frontLeft - (w.frontLeft + t)).norm < ε ∧ (w'.frontRight - (w.frontRight + t)).norm < ε ∧
    (w'.backLeft - (w.backLeft + t)).norm < ε ∧ (w'.backRight - (w.backRight + t)).norm < ε ∧
    |w'.strength - w.strength| < ε ∧ w'.age = w.age
  panels : p.firstResultsStep ≤ k → p'.firstResultsStep ≤ k → ∀ r panel, panelAt (p.airplanesAt k) r = some panel →
    ∃ L L', (s.panels k r).loads = some L ∧ (s'.panels k (r.ofAirplane i)).loads = some L' ∧
      (L'.forceWind - L.forceWind).norm < ε ∧ (L'.momentWind - L.momentWind).norm < ε
  totals : p.firstResultsStep ≤ k → p'.firstResultsStep ≤ k → ∃ L L' : AirplaneLoads,
    (s.loads k)[0]? = some L ∧ (s'.loads k)[i]? = some L' ∧
    (L'.forceWind - L.forceWind).norm < ε ∧ (L'.momentWind - L.momentWind).norm < ε ∧
    (L'.forceCoefficients - L.forceCoefficients).norm < ε ∧ (L'.momentCoefficients - L.momentCoefficients).norm < ε

end Ptera
