import Verif.Spec.Studies

/-! Specification vocabulary: the same wings, distributed among airplanes in another way. -/

namespace Ptera

noncomputable section

/-- The airplanes `as'` have the wings of the airplanes `as`, distributed among airplanes in another way: wing `w` of
airplane `a` of `as` is wing `ω a w` of airplane `ρ a w` of `as'`, no two wings become the same one, and there are no
other wings. Nothing is said about the reference points and dimensions, nor about how many airplanes there are. -/
structure Regrouped (as as' : List Airplane) (ρ ω : ℕ → ℕ → ℕ) : Prop where
  kept : ∀ a A w W, as[a]? = some A → A.wings[w]? = some W → ∃ A', as'[ρ a w]? = some A' ∧ A'.wings[ω a w]? = some W
  all : ∀ a' A' w' W', as'[a']? = some A' → A'.wings[w']? = some W' →
    ∃ a A w W, as[a]? = some A ∧ A.wings[w]? = some W ∧ ρ a w = a' ∧ ω a w = w'
  once : ∀ a A w W b B v V, as[a]? = some A → A.wings[w]? = some W → as[b]? = some B → B.wings[v]? = some V →
    ρ a w = ρ b v → ω a w = ω b v → a = b ∧ w = v

/-- The total force on all airplanes, in wind axes. -/
def allForces (totals : List AirplaneLoads) : V3 := (totals.map (·.forceWind)).sum

/-- The total moment on all airplanes, in wind axes. -/
def allMoments (totals : List AirplaneLoads) : V3 := (totals.map (·.momentWind)).sum

/-- The total moment on all airplanes about the origin of the geometry axes, in wind axes: the moment of each airplane
is about its own reference point. -/
def allMomentsAboutOrigin (op : OperatingPoint) (as : List Airplane) (totals : List AirplaneLoads) : V3 :=
  (List.zipWith (fun A L => L.momentWind
    + (op.rotationWindToGeometry.transpose.mulVec A.xyzRef).cross L.forceWind) as totals).sum

/-- Step `k` of the finished run `s'` of problem `p'` shows what step `k` of the finished run `s` of problem `p` shows,
wing `w` of airplane `a` of `p` being wing `ω a w` of airplane `ρ a w` of `p'`: the flow, the panels, the strengths of
their rings, the wake, and, where loads are computed, the forces on the panels, their moments up to the change of
reference point, and the total force and moment on everything. -/
structure StepRegrouped (p p' : UnsteadyProblem) (ρ ω : ℕ → ℕ → ℕ) (s s' : UnsteadySolver) (k : ℕ) : Prop where
  flow : ∀ q, Ptera.flow s' k q = Ptera.flow s k q
  panels : ∀ r c, panelAt (p.airplanesAt k) r = some c →
    panelAt (p'.airplanesAt k) ⟨ρ r.airplane r.wing, ω r.airplane r.wing, r.row, r.col⟩ = some c ∧
    (∃ v v', (s.panels k r).ring = some v ∧
      (s'.panels k ⟨ρ r.airplane r.wing, ω r.airplane r.wing, r.row, r.col⟩).ring = some v' ∧ v'.strength = v.strength) ∧
    (p.firstResultsStep ≤ k → ∃ L L', (s.panels k r).loads = some L ∧
      (s'.panels k ⟨ρ r.airplane r.wing, ω r.airplane r.wing, r.row, r.col⟩).loads = some L' ∧
      L'.forceGeometry = L.forceGeometry ∧ L'.forceWind = L.forceWind ∧
      ∀ A A', (p.airplanesAt k)[r.airplane]? = some A → (p'.airplanesAt k)[ρ r.airplane r.wing]? = some A' →
        L'.momentGeometry = L.momentGeometry + (A.xyzRef - A'.xyzRef).cross L.forceGeometry)
  wake : ∀ c ∈ wakePlaces p k,
    (⟨ρ c.airplane c.wing, ω c.airplane c.wing, c.row, c.col⟩ : WakePlace) ∈ wakePlaces p' k ∧
    ∃ w, wakeRecord s k c = some w ∧ wakeRecord s' k ⟨ρ c.airplane c.wing, ω c.airplane c.wing, c.row, c.col⟩ = some w
  totals : p.firstResultsStep ≤ k →
    (s.loads k).length = (p.airplanesAt k).length ∧ (s'.loads k).length = (p'.airplanesAt k).length ∧
    allForces (s'.loads k) = allForces (s.loads k) ∧
    allMomentsAboutOrigin (p'.operatingPointAt k) (p'.airplanesAt k) (s'.loads k)
      = allMomentsAboutOrigin (p.operatingPointAt k) (p.airplanesAt k) (s.loads k) ∧
    ((∀ A ∈ p.airplanesAt k, ∀ A' ∈ p'.airplanesAt k, A'.xyzRef = A.xyzRef) →
      allMoments (s'.loads k) = allMoments (s.loads k))

/-- The airplane movements `ams'` move the wings that `ams` move, distributed among airplanes in another way: wing
movement `w` of airplane movement `a` is wing movement `ω a w` of airplane movement `ρ a w`. All airplanes have the same
reference point, moving alike. -/
structure RegroupedMovements (ams ams' : List AirplaneMovement) (ρ ω : ℕ → ℕ → ℕ) : Prop where
  kept : ∀ a m w W, ams[a]? = some m → m.wingMovements[w]? = some W →
    ∃ m', ams'[ρ a w]? = some m' ∧ m'.wingMovements[ω a w]? = some W
  all : ∀ a' m' w' W', ams'[a']? = some m' → m'.wingMovements[w']? = some W' →
    ∃ a m w W, ams[a]? = some m ∧ m.wingMovements[w]? = some W ∧ ρ a w = a' ∧ ω a w = w'
  once : ∀ a m w W b n v V, ams[a]? = some m → m.wingMovements[w]? = some W → ams[b]? = some n →
    n.wingMovements[v]? = some V → ρ a w = ρ b v → ω a w = ω b v → a = b ∧ w = v
  winged : ∀ m' ∈ ams', m'.wingMovements ≠ []
  reference : ∀ m ∈ ams, ∀ m' ∈ ams', m'.base.xyzRef = m.base.xyzRef ∧ m'.xRef = m.xRef ∧ m'.yRef = m.yRef ∧
    m'.zRef = m.zRef

end

end Ptera
