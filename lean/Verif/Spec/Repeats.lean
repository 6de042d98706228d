import Verif.Model.Movement

/-!
# What repeats

When an oscillation is, after some time, where it was.
-/

namespace Ptera

/-- After the time `T` the oscillation is where it was: it stands still, or `T` is a whole number of its periods (and a
custom function repeats when its argument grows by `2π`). -/
def Oscillation.RepeatsAfter (o : Oscillation) (T : ℝ) : Prop :=
  o.amplitude = 0 ∨ o.period = 0 ∨
    ((∃ m : ℤ, T = m * o.period) ∧ ∀ f, o.spacing = "custom" → o.custom = some f → ∀ x, f (x + 2 * Real.pi) = f x)

/-- All the oscillations of a study. -/
def WingCrossSectionMovement.oscillations (m : WingCrossSectionMovement) : List Oscillation :=
  [m.sweeping, m.pitching, m.heaving]
def WingMovement.oscillations (m : WingMovement) : List Oscillation :=
  [m.xLe, m.yLe, m.zLe] ++ m.sectionMovements.flatMap (·.oscillations)
def AirplaneMovement.oscillations (m : AirplaneMovement) : List Oscillation :=
  [m.xRef, m.yRef, m.zRef] ++ m.wingMovements.flatMap (·.oscillations)
def studyOscillations (ams : List AirplaneMovement) (om : OperatingPointMovement) : List Oscillation :=
  om.velocity :: ams.flatMap (·.oscillations)

end Ptera
