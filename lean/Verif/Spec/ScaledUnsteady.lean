import Verif.Spec.Scaled
import Verif.Spec.Unsteady
import Verif.Model.Movement

/-! Specification vocabulary: unsteady runs in another unit of length. -/

namespace Ptera

noncomputable section

/-- The oscillation with `a` times the amplitude and `t` times the period. -/
def Oscillation.scaled (a t : ℝ) (o : Oscillation) : Oscillation :=
  { o with amplitude := a * o.amplitude, period := t * o.period }

/-- The movement of a cross section with lengths multiplied by `ℓ` and times by `t`; its amplitudes are angles. -/
def WingCrossSectionMovement.scaled (ℓ t : ℝ) (m : WingCrossSectionMovement) : WingCrossSectionMovement :=
  { base := m.base.inUnits ℓ, sweeping := m.sweeping.scaled 1 t, pitching := m.pitching.scaled 1 t
    heaving := m.heaving.scaled 1 t }

/-- The wing movement `m'` is `m` with lengths multiplied by `ℓ` and times by `t`. -/
def WingMovement.Scaled (ℓ t : ℝ) (m m' : WingMovement) : Prop :=
  Wing.Scaled ℓ m.base m'.base ∧
  m' = { base := m'.base, sectionMovements := m.sectionMovements.map (·.scaled ℓ t), xLe := m.xLe.scaled ℓ t
         yLe := m.yLe.scaled ℓ t, zLe := m.zLe.scaled ℓ t }

/-- The airplane movement `m'` is `m` with lengths multiplied by `ℓ` and times by `t`. -/
def AirplaneMovement.Scaled (ℓ t : ℝ) (m m' : AirplaneMovement) : Prop :=
  Airplane.Scaled ℓ m.base m'.base ∧ List.Forall₂ (WingMovement.Scaled ℓ t) m.wingMovements m'.wingMovements ∧
  m' = { base := m'.base, wingMovements := m'.wingMovements, xRef := m.xRef.scaled ℓ t, yRef := m.yRef.scaled ℓ t
         zRef := m.zRef.scaled ℓ t }

/-- The operating point movement with velocities multiplied by `c` and times by `t`. -/
def OperatingPointMovement.scaled (c t : ℝ) (m : OperatingPointMovement) : OperatingPointMovement :=
  { base := { m.base with velocity := c * m.base.velocity }, velocity := m.velocity.scaled c t }

/-- `l` is one of the four sides of a bound vortex ring of step `k`, or of a wake ring recorded for step `k`. -/
def IsUnsteadyFilament (s : UnsteadySolver) (k : ℕ) (l : LineVortex) : Prop :=
  (∃ r panel v, panelAt (s.problem.airplanesAt k) r = some panel ∧ (s.panels k r).ring = some v ∧ l ∈ v.legs) ∨
  ∃ q w, wakeRecord s k q = some w ∧
    l ∈ (RingVortex.mk' w.frontLeft w.frontRight w.backLeft w.backRight w.strength).legs

/-- `q` is one of the points at which the velocity is evaluated at step `k`: the collocation points; the centres of the
sides that carry loads, if loads are calculated at that step; and, if the wake is free and another step follows, the
corners of the wake rings. (At the first step, when there are no wake rings yet, these are the front corners of the rings
of the second step, which start from the trailing edges of that step.) -/
def IsUnsteadyEvaluated (s : UnsteadySolver) (prescribed : Bool) (k : ℕ) (q : V3) : Prop :=
  (∃ r panel, panelAt (s.problem.airplanesAt k) r = some panel ∧ (q = panel.collocationPoint ∨
    s.problem.firstResultsStep ≤ k ∧ ∃ v, (s.panels k r).ring = some v ∧
      (q = v.frontMiddle ∨ q = v.leftMiddle ∨ q = v.rightMiddle))) ∨
  prescribed = false ∧ k + 1 < s.problem.numSteps ∧
    ((∃ place w, wakeRecord s k place = some w ∧
      (q = w.frontLeft ∨ q = w.frontRight ∨ q = w.backLeft ∨ q = w.backRight)) ∨
    k = 0 ∧ ∃ place w, wakeRecord s 1 place = some w ∧ (q = w.frontLeft ∨ q = w.frontRight))

/-- Step `k` of the finished run `s'` shows what step `k` of the finished run `s` of problem `p` shows, with lengths `ℓ`
times and velocities `c` times as large: vortices are at `ℓ` times the positions, strengths are `ℓ c` times as large, ages
are multiplied by `ℓ / c`, forces by `(ℓ c)²`, moments by `ℓ (ℓ c)²`, and the coefficients are the same. -/
structure StepScaled (p : UnsteadyProblem) (ℓ c : ℝ) (s s' : UnsteadySolver) (k : ℕ) : Prop where
  flow : ∀ q, (∀ l, IsUnsteadyFilament s k l → SameCutOff ℓ l q) → Ptera.flow s' k (ℓ • q) = c • Ptera.flow s k q
  rings : ∀ r panel, panelAt (p.airplanesAt k) r = some panel → ∃ v v', (s.panels k r).ring = some v ∧
    (s'.panels k r).ring = some v' ∧ v'.frontLeft = ℓ • v.frontLeft ∧ v'.frontRight = ℓ • v.frontRight ∧
    v'.backLeft = ℓ • v.backLeft ∧ v'.backRight = ℓ • v.backRight ∧ v'.strength = ℓ * c * v.strength
  wake : ∀ q ∈ wakePlaces p k, ∃ w w', wakeRecord s k q = some w ∧ wakeRecord s' k q = some w' ∧
    w'.frontLeft = ℓ • w.frontLeft ∧ w'.frontRight = ℓ • w.frontRight ∧ w'.backLeft = ℓ • w.backLeft ∧
    w'.backRight = ℓ • w.backRight ∧ w'.strength = ℓ * c * w.strength ∧ w'.age = ℓ / c * w.age
  panels : p.firstResultsStep ≤ k → ∀ r panel, panelAt (p.airplanesAt k) r = some panel → ∃ L L',
    (s.panels k r).loads = some L ∧ (s'.panels k r).loads = some L' ∧
    L'.forceGeometry = (ℓ * c) ^ 2 • L.forceGeometry ∧ L'.momentGeometry = (ℓ * (ℓ * c) ^ 2) • L.momentGeometry ∧
    L'.forceWind = (ℓ * c) ^ 2 • L.forceWind ∧ L'.momentWind = (ℓ * (ℓ * c) ^ 2) • L.momentWind
  totals : p.firstResultsStep ≤ k → ∀ (a : ℕ) A, (p.airplanesAt k)[a]? = some A → ∃ L L' : AirplaneLoads,
    (s.loads k)[a]? = some L ∧ (s'.loads k)[a]? = some L' ∧
    L'.forceWind = (ℓ * c) ^ 2 • L.forceWind ∧ L'.momentWind = (ℓ * (ℓ * c) ^ 2) • L.momentWind ∧
    L'.forceCoefficients = L.forceCoefficients ∧ L'.momentCoefficients = L.momentCoefficients

end

end Ptera
