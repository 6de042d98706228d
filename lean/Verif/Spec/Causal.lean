import Verif.Spec.Studies

/-! Specification vocabulary: two runs that show the same things at a step. -/

namespace Ptera

/-- Step `k` of the finished run `s'` of problem `p'` shows exactly what step `k` of the finished run `s` of problem `p`
shows: the flow everywhere, the vortex ring of every panel with its corners and strength, every ring of the wake with its
corners, strength and age, and, where both runs compute loads, the loads and coefficients of every panel and every
airplane. -/
structure StepAgrees (p p' : UnsteadyProblem) (s s' : UnsteadySolver) (k : ℕ) : Prop where
  flow : ∀ q, Ptera.flow s' k q = Ptera.flow s k q
  rings : ∀ r c, panelAt (p.airplanesAt k) r = some c → ∃ v, (s.panels k r).ring = some v ∧
    (s'.panels k r).ring = some v
  wake : ∀ c ∈ wakePlaces p k, ∃ w, wakeRecord s k c = some w ∧ wakeRecord s' k c = some w
  panels : p.firstResultsStep ≤ k → p'.firstResultsStep ≤ k → ∀ r c, panelAt (p.airplanesAt k) r = some c →
    ∃ L, (s.panels k r).loads = some L ∧ (s'.panels k r).loads = some L
  totals : p.firstResultsStep ≤ k → p'.firstResultsStep ≤ k → ∀ a < (p.airplanesAt k).length,
    ∃ L, (s.loads k)[a]? = some L ∧ (s'.loads k)[a]? = some L

end Ptera
