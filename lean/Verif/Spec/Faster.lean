import Verif.Spec.Studies

/-! Specification vocabulary: the same motion at another speed. -/

namespace Ptera

noncomputable section

/-- The oscillation, `c` times as fast. -/
def Oscillation.faster (c : ℝ) (o : Oscillation) : Oscillation := { o with period := o.period / c }

/-- The movement of a cross section, `c` times as fast. -/
def WingCrossSectionMovement.faster (c : ℝ) (m : WingCrossSectionMovement) : WingCrossSectionMovement :=
  { m with sweeping := m.sweeping.faster c, pitching := m.pitching.faster c, heaving := m.heaving.faster c }

/-- The movement of a wing, `c` times as fast. -/
def WingMovement.faster (c : ℝ) (m : WingMovement) : WingMovement :=
  { m with sectionMovements := m.sectionMovements.map (·.faster c), xLe := m.xLe.faster c, yLe := m.yLe.faster c,
           zLe := m.zLe.faster c }

/-- The movement of an airplane, `c` times as fast. -/
def AirplaneMovement.faster (c : ℝ) (m : AirplaneMovement) : AirplaneMovement :=
  { m with wingMovements := m.wingMovements.map (·.faster c), xRef := m.xRef.faster c, yRef := m.yRef.faster c,
           zRef := m.zRef.faster c }

/-- The operating point movement, `c` times as fast: speed and its changes are `c` times as large, and the changes take
`1 / c` of the time. -/
def OperatingPointMovement.faster (c : ℝ) (m : OperatingPointMovement) : OperatingPointMovement :=
  { base := { m.base with velocity := c * m.base.velocity }
    velocity := { m.velocity.faster c with amplitude := c * m.velocity.amplitude } }

/-- Step `k` of the finished run `s'` shows what step `k` of the finished run `s` of problem `p` shows, `c` times as
fast: velocities and strengths are `c` times as large, wake vortices are at the same places and have aged `1 / c` as much,
loads are `c ^ 2` times as large, and the coefficients are the same. -/
structure StepFaster (p : UnsteadyProblem) (c : ℝ) (s s' : UnsteadySolver) (k : ℕ) : Prop where
  flow : ∀ q, Ptera.flow s' k q = c • Ptera.flow s k q
  rings : ∀ r panel, panelAt (p.airplanesAt k) r = some panel → ∃ v v', (s.panels k r).ring = some v ∧
    (s'.panels k r).ring = some v' ∧ v'.frontLeft = v.frontLeft ∧ v'.frontRight = v.frontRight ∧
    v'.backLeft = v.backLeft ∧ v'.backRight = v.backRight ∧ v'.strength = c * v.strength
  wake : ∀ q ∈ wakePlaces p k, ∃ w, wakeRecord s k q = some w ∧
    wakeRecord s' k q = some { w with strength := c * w.strength, age := w.age / c }
  panels : p.firstResultsStep ≤ k → ∀ r panel, panelAt (p.airplanesAt k) r = some panel → ∃ L L',
    (s.panels k r).loads = some L ∧ (s'.panels k r).loads = some L' ∧
    L'.forceGeometry = c ^ 2 • L.forceGeometry ∧ L'.momentGeometry = c ^ 2 • L.momentGeometry ∧
    L'.forceWind = c ^ 2 • L.forceWind ∧ L'.momentWind = c ^ 2 • L.momentWind
  totals : p.firstResultsStep ≤ k → ∀ (a : ℕ) A, (p.airplanesAt k)[a]? = some A → ∃ L L' : AirplaneLoads,
    (s.loads k)[a]? = some L ∧ (s'.loads k)[a]? = some L' ∧
    L'.forceWind = c ^ 2 • L.forceWind ∧ L'.momentWind = c ^ 2 • L.momentWind ∧
    L'.forceCoefficients = L.forceCoefficients ∧ L'.momentCoefficients = L.momentCoefficients

end

end Ptera
