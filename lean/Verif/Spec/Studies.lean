import Verif.Spec.Unsteady
import Verif.Spec.Moved

/-! Specification vocabulary: making an unsteady problem from movements, as a user does, and runs that show the same
things elsewhere and with other loads. -/

namespace Ptera

noncomputable section

/-- Making a `Movement` and an `UnsteadyProblem` of it. -/
def study (ams : List AirplaneMovement) (om : OperatingPointMovement) (numSteps numCycles numChords : Option ℕ)
    (deltaTime : Option ℝ) (onlyFinalResults : Bool) : Except Err UnsteadyProblem := do
  let mv ← Movement.create ams om numSteps numCycles numChords deltaTime
  UnsteadyProblem.create mv onlyFinalResults

/-- The wing movements `m` and `m'` are the same, except that the base wing of `m'` is built at a place moved by
`t`. -/
def WingMovement.Shifted (t : V3) (m m' : WingMovement) : Prop :=
  Wing.Moved M3.one t m.base m'.base ∧ m' = { m with base := m'.base }

/-- The airplane movements `m` and `m'` are the same, except that the base airplane of `m'` and the base wings of its
wing movements are built at a place moved by `t`. -/
def AirplaneMovement.Shifted (t : V3) (m m' : AirplaneMovement) : Prop :=
  Airplane.Moved M3.one t m.base m'.base ∧ List.Forall₂ (WingMovement.Shifted t) m.wingMovements m'.wingMovements ∧
  m' = { m with base := m'.base, wingMovements := m'.wingMovements }

/-- A recorded wake ring, moved by `t`. -/
def WakeSlot.moved (t : V3) (w : WakeSlot) : WakeSlot :=
  { w with frontRight := w.frontRight + t, frontLeft := w.frontLeft + t, backLeft := w.backLeft + t
           backRight := w.backRight + t }

/-- Step `k` of the finished run `s'` shows what step `k` of the finished run `s` of problem `p` shows, moved by `t`
and with loads that are `κ` times as large: the flow, the strengths of the panels' rings, the wake, and, where loads
are computed, the loads of the panels and of the airplanes; the coefficients are the same. -/
structure StepCorresponds (p : UnsteadyProblem) (t : V3) (κ : ℝ) (s s' : UnsteadySolver) (k : ℕ) : Prop where
  flow : ∀ q, Ptera.flow s' k (q + t) = Ptera.flow s k q
  strengths : ∀ r c, panelAt (p.airplanesAt k) r = some c → ∃ v v', (s.panels k r).ring = some v ∧
    (s'.panels k r).ring = some v' ∧ v'.strength = v.strength
  wake : ∀ c ∈ wakePlaces p k, ∃ w, wakeRecord s k c = some w ∧ wakeRecord s' k c = some (w.moved t)
  panels : p.firstResultsStep ≤ k → ∀ r c, panelAt (p.airplanesAt k) r = some c → ∃ L L',
    (s.panels k r).loads = some L ∧ (s'.panels k r).loads = some L' ∧
    L'.forceGeometry = κ • L.forceGeometry ∧ L'.momentGeometry = κ • L.momentGeometry ∧
    L'.forceWind = κ • L.forceWind ∧ L'.momentWind = κ • L.momentWind
  totals : p.firstResultsStep ≤ k → ∀ (a : ℕ) A, (p.airplanesAt k)[a]? = some A → ∃ L L' : AirplaneLoads,
    (s.loads k)[a]? = some L ∧ (s'.loads k)[a]? = some L' ∧
    L'.forceWind = κ • L.forceWind ∧ L'.momentWind = κ • L.momentWind ∧
    L'.forceCoefficients = L.forceCoefficients ∧ L'.momentCoefficients = L.momentCoefficients

end

end Ptera
