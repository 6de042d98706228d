import Verif.Spec.Studies

/-! Specification vocabulary: the same movements of airplanes and wings listed in another order, and runs that show the
same things under the other numbers. -/

namespace Ptera

noncomputable section

/-- The airplane movements `ams'` are the airplane movements `ams` in another order, each with the same wing movements in
another order: movement `a` has become movement `ρ a`, and its wing movement `w` wing movement `ω a w`. The reference
points and their motion are the same; nothing is said about the rest of the base airplanes. -/
structure ReorderedMovements (ams ams' : List AirplaneMovement) (ρ : ℕ → ℕ) (ω : ℕ → ℕ → ℕ) : Prop where
  length : ams'.length = ams.length
  injective : ∀ a b, a < ams.length → b < ams.length → ρ a = ρ b → a = b
  movements : ∀ (a : ℕ) m, ams[a]? = some m → ∃ m' : AirplaneMovement, ams'[ρ a]? = some m' ∧
    m'.base.xyzRef = m.base.xyzRef ∧ m'.xRef = m.xRef ∧ m'.yRef = m.yRef ∧ m'.zRef = m.zRef ∧
    m'.wingMovements.length = m.wingMovements.length ∧
    (∀ v w, v < m.wingMovements.length → w < m.wingMovements.length → ω a v = ω a w → v = w) ∧
    ∀ (w : ℕ) W, m.wingMovements[w]? = some W → m'.wingMovements[ω a w]? = some W

/-- What the default time step and the default number of steps are computed from is the same: the reference chords of
the base airplanes and the numbers of chordwise panels of the wings that are listed first. -/
def SameDefaults (ams ams' : List AirplaneMovement) (ρ : ℕ → ℕ) : Prop :=
  ∀ (a : ℕ) m m', ams[a]? = some m → ams'[ρ a]? = some m' → m'.base.cRef = m.base.cRef ∧
    m'.base.wings.head?.map (·.spec.numChordwisePanels) = m.base.wings.head?.map (·.spec.numChordwisePanels)

/-- Step `k` of the finished run `s'` of problem `p'` shows what step `k` of the finished run `s` of problem `p` shows,
airplane `a` of `p` being airplane `ρ a` of `p'` and its wing `w` being wing `ω a w`: the flow, the panels, the
strengths of their rings, the wake, and, where loads are computed, the loads of the panels and of the airplanes; an
airplane's coefficients are the same if its reference dimensions are, and these are if the wing listed first is the
same. -/
structure StepReordered (p p' : UnsteadyProblem) (ρ : ℕ → ℕ) (ω : ℕ → ℕ → ℕ) (s s' : UnsteadySolver) (k : ℕ) :
    Prop where
  flow : ∀ q, Ptera.flow s' k q = Ptera.flow s k q
  panels : ∀ r c, panelAt (p.airplanesAt k) r = some c →
    panelAt (p'.airplanesAt k) ⟨ρ r.airplane, ω r.airplane r.wing, r.row, r.col⟩ = some c ∧
    (∃ v v', (s.panels k r).ring = some v ∧
      (s'.panels k ⟨ρ r.airplane, ω r.airplane r.wing, r.row, r.col⟩).ring = some v' ∧ v'.strength = v.strength) ∧
    (p.firstResultsStep ≤ k → ∃ L L', (s.panels k r).loads = some L ∧
      (s'.panels k ⟨ρ r.airplane, ω r.airplane r.wing, r.row, r.col⟩).loads = some L' ∧
      L'.forceGeometry = L.forceGeometry ∧ L'.momentGeometry = L.momentGeometry ∧
      L'.forceWind = L.forceWind ∧ L'.momentWind = L.momentWind)
  wake : ∀ c ∈ wakePlaces p k, (⟨ρ c.airplane, ω c.airplane c.wing, c.row, c.col⟩ : WakePlace) ∈ wakePlaces p' k ∧
    ∃ w, wakeRecord s k c = some w ∧ wakeRecord s' k ⟨ρ c.airplane, ω c.airplane c.wing, c.row, c.col⟩ = some w
  totals : p.firstResultsStep ≤ k → ∀ (a : ℕ) A, (p.airplanesAt k)[a]? = some A → ∃ A' L L',
    (p'.airplanesAt k)[ρ a]? = some A' ∧ (s.loads k)[a]? = some L ∧ (s'.loads k)[ρ a]? = some L' ∧
    L'.forceWind = L.forceWind ∧ L'.momentWind = L.momentWind ∧
    (ω a 0 = 0 → A'.sRef = A.sRef ∧ A'.cRef = A.cRef ∧ A'.bRef = A.bRef) ∧
    (A'.sRef = A.sRef → A'.cRef = A.cRef → A'.bRef = A.bRef →
      L'.forceCoefficients = L.forceCoefficients ∧ L'.momentCoefficients = L.momentCoefficients)

end

end Ptera
