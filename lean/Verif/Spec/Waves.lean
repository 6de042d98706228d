import Verif.Model.Movement

/-! Specification vocabulary: the functions of time that oscillations prescribe. -/

namespace Ptera

noncomputable section

/-- A sine wave of amplitude `A`, period `T`, starting at `k`. -/
def sineWave (A T k t : ℝ) : ℝ := k + A * Real.sin (2 * Real.pi * t / T)

/-- A triangle wave of amplitude `A`, period `T`, starting at `k` and rising (for `A > 0`): `w` satisfies this if it is
periodic and piecewise linear with the corners at `T/4` and `3T/4`. -/
structure IsTriangleWave (w : ℝ → ℝ) (A T k : ℝ) : Prop where
  periodic : ∀ t, w (t + T) = w t
  rising : ∀ t, 0 ≤ t → t ≤ T / 4 → w t = k + 4 * A * t / T
  falling : ∀ t, T / 4 ≤ t → t ≤ 3 * T / 4 → w t = k + A * (2 - 4 * t / T)
  risingAgain : ∀ t, 3 * T / 4 ≤ t → t ≤ T → w t = k + A * (4 * t / T - 4)

/-- `values` are the values of the function of time `w` at the steps `0, dt, 2 dt, ...`. -/
def Samples (values : List ℝ) (n : ℕ) (dt : ℝ) (w : ℝ → ℝ) : Prop :=
  values.length = n ∧ ∀ i < n, values[i]? = some (w (i * dt))

/-- `w` is the function of time that an oscillation prescribes around a base value: constant if the amplitude or the
period is zero; else, by the name of the spacing, a sine wave, a triangle wave (periods are positive) or the custom
function, stretched so that its argument grows by `2π` per period. There are no other spacings. -/
def Oscillation.Prescribes (o : Oscillation) (base : ℝ) (w : ℝ → ℝ) : Prop :=
  (o.amplitude = 0 ∨ o.period = 0 → ∀ t, w t = base) ∧
  (o.amplitude ≠ 0 → o.period ≠ 0 →
    (o.spacing = "sine" ∧ ∀ t, w t = sineWave o.amplitude o.period base t) ∨
    (o.spacing = "uniform" ∧ (0 < o.period → IsTriangleWave w o.amplitude o.period base)) ∨
    (o.spacing = "custom" ∧ ∃ f, o.custom = some f ∧ ∀ t, w t = base + o.amplitude * f (2 * Real.pi * t / o.period)))

/-- The direction from a wing cross section to the next one, at a sweep angle and a heave angle in degrees. -/
def sectionDirection (sweep heave : ℝ) : V3 :=
  ⟨Real.cos (sweep * Real.pi / 180) * Real.sin (heave * Real.pi / 180),
   Real.cos (sweep * Real.pi / 180) * Real.cos (heave * Real.pi / 180), Real.sin (sweep * Real.pi / 180)⟩

end

end Ptera
