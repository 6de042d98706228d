import Verif.Spec.NearbyWings
import Verif.Model.Movement

/-! Specification vocabulary: movements given with slightly different numbers. -/

namespace Ptera

/-- Two oscillations of the same kind whose amplitudes differ by less than `δ`, and either whose periods, not zero, differ by
less than `δ`, or of which the first is at rest with amplitude zero (then the other may have any period, unless it moves by
a custom function). -/
structure Oscillation.Near (δ : ℝ) (o o' : Oscillation) : Prop where
  spacing : o'.spacing = o.spacing
  custom : o'.custom = o.custom
  amplitude : |o'.amplitude - o.amplitude| < δ
  period : (o.period ≠ 0 ∧ |o'.period - o.period| < δ) ∨
    (o.amplitude = 0 ∧ (o'.amplitude = 0 ∨ o.spacing ≠ "custom"))

/-- Two movements of cross sections whose base cross sections and oscillations differ by less than `δ`. -/
structure WingCrossSectionMovement.Near (δ : ℝ) (m m' : WingCrossSectionMovement) : Prop where
  base : m.base.Near δ m'.base
  sweeping : m.sweeping.Near δ m'.sweeping
  pitching : m.pitching.Near δ m'.pitching
  heaving : m.heaving.Near δ m'.heaving

/-- Two movements of wings with the same symmetry, chordwise panels and spacing, whose leading edges, oscillations and
movements of cross sections, one by one, differ by less than `δ`. If a deflection differs at all, the control surfaces must
be regular. -/
structure WingMovement.Near (δ : ℝ) (m m' : WingMovement) : Prop where
  symmetric : m'.base.spec.symmetric = m.base.spec.symmetric
  numChordwisePanels : m'.base.spec.numChordwisePanels = m.base.spec.numChordwisePanels
  chordwiseSpacing : m'.base.spec.chordwiseSpacing = m.base.spec.chordwiseSpacing
  leadingEdge : (m'.base.spec.leadingEdge - m.base.spec.leadingEdge).norm < δ
  sections : List.Forall₂ (WingCrossSectionMovement.Near δ) m.sectionMovements m'.sectionMovements
  flaps : m'.sectionMovements.map (·.base.deflection) = m.sectionMovements.map (·.base.deflection) ∨
    RegularFlaps (m.sectionMovements.map (·.base))
  xLe : m.xLe.Near δ m'.xLe
  yLe : m.yLe.Near δ m'.yLe
  zLe : m.zLe.Near δ m'.zLe

/-- Two movements of airplanes whose reference points, oscillations and movements of wings, one by one, differ by less than
`δ`. -/
structure AirplaneMovement.Near (δ : ℝ) (m m' : AirplaneMovement) : Prop where
  xyzRef : (m'.base.xyzRef - m.base.xyzRef).norm < δ
  wings : List.Forall₂ (WingMovement.Near δ) m.wingMovements m'.wingMovements
  xRef : m.xRef.Near δ m'.xRef
  yRef : m.yRef.Near δ m'.yRef
  zRef : m.zRef.Near δ m'.zRef

/-- Two movements of operating points that differ by less than `δ`. -/
structure OperatingPointMovement.Near (δ : ℝ) (m m' : OperatingPointMovement) : Prop where
  base_velocity : |m'.base.velocity - m.base.velocity| < δ
  density : |m'.base.density - m.base.density| < δ
  alpha : |m'.base.alpha - m.base.alpha| < δ
  beta : |m'.base.beta - m.base.beta| < δ
  velocity : m.velocity.Near δ m'.velocity

/-- The custom functions of a movement are continuous, and no outer cross section is, at the first of `n` steps, straight
above or below its inner neighbour. -/
def WingMovement.Regular (m : WingMovement) (n : ℕ) (dt : ℝ) : Prop :=
  (∀ c ∈ m.sectionMovements, ∀ o ∈ [c.sweeping, c.pitching, c.heaving], ∀ f, o.custom = some f → Continuous f) ∧
  ∀ wings w, m.generate n dt = .ok wings → wings[0]? = some w → ∀ (j : ℕ) (c : WingCrossSectionMovement) (s : WingCrossSection),
    m.sectionMovements[j + 1]? = some c → w.sections[j]? = some s → c.base.leadingEdge.y ≠ s.leadingEdge.y

end Ptera
