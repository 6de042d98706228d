import Verif.Spec.Studies

/-! Specification vocabulary: how the results a run reports at its end follow those of another run. -/

namespace Ptera

noncomputable section

/-- The vector with components multiplied one by one. -/
def V3.times (d v : V3) : V3 := ⟨d.x * v.x, d.y * v.y, d.z * v.z⟩

/-- The vector of the absolute values of the components. -/
def V3.size (d : V3) : V3 := ⟨|d.x|, |d.y|, |d.z|⟩

/-- Entry `i` of what was appended to the list `before` when it became the list `after`. -/
def addedResult (before after : List V3) (i : ℕ) : Option V3 := after[before.length + i]?

/-- One factor for each component of the forces, the moments and their coefficients, in wind axes. -/
structure LoadFactors where
  force : V3
  moment : V3
  forceCoefficients : V3
  momentCoefficients : V3

/-- The result lists with the factor of the quantity they hold. -/
def LoadFactors.each (f : LoadFactors) : List ((ResultLists → List V3) × V3) :=
  [(ResultLists.forces, f.force), (ResultLists.forceCoefficients, f.forceCoefficients),
   (ResultLists.moments, f.moment), (ResultLists.momentCoefficients, f.momentCoefficients)]

/-- The loads `L'` are the loads `L` with the factors `f`. -/
def LoadFactors.Holds (f : LoadFactors) (L L' : AirplaneLoads) : Prop :=
  L'.forceWind = f.force.times L.forceWind ∧ L'.momentWind = f.moment.times L.momentWind ∧
  L'.forceCoefficients = f.forceCoefficients.times L.forceCoefficients ∧
  L'.momentCoefficients = f.momentCoefficients.times L.momentCoefficients

/-- The run from `z` to `z₁` appends for airplane `ρ i` to the final loads and to the means of the last cycle what the run
from `s` to `s₁` appends for airplane `i`, with the factors `f`, and to the root-mean-squares the same with the absolute
values of the factors. -/
structure FinalsFollow (n : ℕ) (ρ : ℕ → ℕ) (f : LoadFactors) (s s₁ z z₁ : UnsteadySolver) : Prop where
  final : ∀ q ∈ f.each, ∀ i < n, addedResult (q.1 z.final) (q.1 z₁.final) (ρ i) =
    (addedResult (q.1 s.final) (q.1 s₁.final) i).map q.2.times
  mean : ∀ q ∈ f.each, ∀ i < n, addedResult (q.1 z.finalMean) (q.1 z₁.finalMean) (ρ i) =
    (addedResult (q.1 s.finalMean) (q.1 s₁.finalMean) i).map q.2.times
  rms : ∀ q ∈ f.each, ∀ i < n, addedResult (q.1 z.finalRms) (q.1 z₁.finalRms) (ρ i) =
    (addedResult (q.1 s.finalRms) (q.1 s₁.finalRms) i).map q.2.size.times

end

end Ptera
