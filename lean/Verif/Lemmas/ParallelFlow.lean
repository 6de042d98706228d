import Verif.Lemmas.Causal

/-! Helper lemmas: nothing disturbs a flow that is parallel to every panel. -/

namespace Ptera

open List UnsteadySolver

theorem linalgSolve_zero {α : Type} {l : List α} {A : α → α → ℝ} {b Γ : α → ℝ} (hb : ∀ i ∈ l, b i = 0)
    (h : linalgSolve (l.map fun i => l.map fun j => A i j) (l.map b) = .ok (l.map Γ)) : ∀ r ∈ l, Γ r = 0 := by
  have := linalgSolve_unique h (y := l.map fun _ => 0) ⟨by simp, by
    rw [matVec_values]
    apply List.map_congr_left
    intro i hi
    rw [hb i hi]
    simp⟩
  exact fun r hr => (map_inj_left this r hr).symm

theorem kutta_zero (density : ℝ) (v l : V3) : kuttaJoukowski density 0 v l = 0 := by
  simp [kuttaJoukowski]

theorem sum_zeros {l : List PanelRef} {f : PanelRef → V3} (h : ∀ r ∈ l, f r = 0) : (l.map f).sum = 0 := by
  rw [List.map_congr_left (g := fun _ => (0 : V3)) h]
  simp

theorem nets_zero {as : List Airplane} {heap : PanelHeap} (h : ∀ r, strengthAt as heap r = 0) (r : PanelRef) :
    netFront as heap r = 0 ∧ netLeft as heap r = 0 ∧ netRight as heap r = 0 := by
  simp [netFront, netLeft, netRight, h]

theorem zero_totals {op : OperatingPoint} {A : Airplane} {L : AirplaneLoads} (hf : L.forceWind = 0)
    (hm : L.momentWind = 0) (h : IsCoefficients op A L) : L = ⟨0, 0, 0, 0⟩ := by
  obtain ⟨a, b⟩ := h
  cases L
  simp only at hf hm a b
  subst hf hm
  simp only [V3.zero_x, V3.zero_y, V3.zero_z, neg_zero, zero_div] at a b
  rw [a, b]
  rfl

theorem entry_zero (nu age : ℝ) (a b q : V3) : expandedEntry nu ⟨a, b, 0, age⟩ q = 0 := by
  rw [expandedEntry_eq]
  split_ifs
  · rfl
  · simp [kernelCoeff]

/-- If no trailing-edge ring of an earlier step has a strength, the wake does nothing. -/
theorem wake_idle {p : UnsteadyProblem} {s s' : UnsteadySolver} {pres : Bool} {st sm : ℕ → UnsteadySolver}
    (hp : p.Regular) (hc : p.Chordwise) (h : Trace p pres s s' st sm) {k : ℕ} (hk : k < p.numSteps)
    (hz : ∀ j < k, ∀ r c, panelAt (p.airplanesAt j) r = some c → ∃ v, (s'.panels j r).ring = some v ∧ v.strength = 0) :
    (∀ c ∈ wakePlaces p k, (placeRing p s' k c).strength = 0) ∧ ∀ q, wakeFlow s' k q = 0 := by
  have hst : ∀ c ∈ wakePlaces p k, (placeRing p s' k c).strength = 0 := by
    intro c hcm
    obtain ⟨hrow, W, hW, hcol⟩ := mem_wakePlaces.mp hcm
    have hj : k - 1 - c.row < p.numSteps := by omega
    have hmem : (⟨k, c.airplane, c.wing⟩ : WingRef) ∈ wingRefs k (p.airplanesAt k) := mem_wingRefs.mpr ⟨rfl, W, hW⟩
    obtain ⟨-, V, hV⟩ := mem_wingRefs.mp (hp.wingRefs_move hk hj hmem)
    have hV' : p.wing? ⟨k - 1 - c.row, c.airplane, c.wing⟩ = some V := hV
    have h1 := hp.span_same hj hk c.airplane c.wing
    simp only [UnsteadyProblem.spanOf, hW, hV', Option.map_some, Option.getD_some] at h1
    have hch := hp.chord_same hj hk c.airplane c.wing
    have hpos := hc _ _ hV'
    have hsome : (panelAt (p.airplanesAt (k - 1 - c.row))
        ⟨c.airplane, c.wing, p.chordOf ⟨k, c.airplane, c.wing⟩ - 1, c.col⟩).isSome := by
      rw [panelAt_isSome hp hV', ← hch]
      have : p.chordOf ⟨k - 1 - c.row, c.airplane, c.wing⟩ = V.spec.numChordwisePanels := by
        simp [UnsteadyProblem.chordOf, hV']
      exact ⟨by omega, by omega⟩
    obtain ⟨C, hC⟩ := Option.isSome_iff_exists.mp hsome
    obtain ⟨v, e1, e2⟩ := hz _ (by omega) _ _ hC
    simp only [placeRing, wakeSlot, wakeRing, RingVortex.mk', edgeStrength, WakePlace.ref, UnsteadySolver.ringAt, e1]
    exact e2
  refine ⟨hst, ?_⟩
  intro q
  unfold wakeFlow
  rw [h.places hk]
  simp only [Option.getD_some, List.map_map]
  rw [List.map_congr_left (g := fun _ => (0 : V3))]
  · simp
  · intro c hcm
    simp only [Function.comp, hst c hcm]
    unfold ringInduced
    simp [entry_zero]

end Ptera
