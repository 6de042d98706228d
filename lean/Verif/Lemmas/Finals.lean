import Verif.Spec.Finals
import Verif.Lemmas.Studies
import Verif.Props.FinalLoads

/-! Runs whose loads follow those of another run over the averaging window report final results that do. -/

namespace Ptera

open UnsteadySolver

@[simp] theorem V3.times_zero (d : V3) : d.times 0 = 0 := by ext <;> simp [V3.times]

theorem V3.one_times (v : V3) : (⟨1, 1, 1⟩ : V3).times v = v := by ext <;> simp [V3.times]

theorem V3.const_times (κ : ℝ) (v : V3) : (⟨κ, κ, κ⟩ : V3).times v = κ • v := by ext <;> simp [V3.times]

theorem mean_map_mul (d : ℝ) (l : List ℝ) : mean (l.map (d * ·)) = d * mean l := by
  unfold mean
  rw [List.sum_map_mul_left, List.map_id', List.length_map]
  ring

theorem meanOf_times (d : V3) (h : List V3) : meanOf (h.map d.times) = d.times (meanOf h) := by
  unfold meanOf
  ext <;> simp only [V3.times, List.map_map] <;> rw [← mean_map_mul, List.map_map] <;> rfl

theorem rmsOf_times (d : V3) (h : List V3) : rmsOf (h.map d.times) = d.size.times (rmsOf h) := by
  have key : ∀ (c : ℝ) (g : V3 → ℝ), Real.sqrt (mean (h.map fun v => (c * g v) ^ 2)) =
      |c| * Real.sqrt (mean (h.map fun v => g v ^ 2)) := by
    intro c g
    have : (h.map fun v => (c * g v) ^ 2) = (h.map fun v => g v ^ 2).map (c ^ 2 * ·) := by
      rw [List.map_map]
      exact List.map_congr_left fun v _ => by simp only [Function.comp]; ring
    rw [this, mean_map_mul, Real.sqrt_mul (sq_nonneg c), Real.sqrt_sq_eq_abs]
  unfold rmsOf
  ext <;> simp only [V3.times, V3.size, List.map_map, Function.comp_def]
  · exact key d.x V3.x
  · exact key d.y V3.y
  · exact key d.z V3.z

theorem getLastD_times (d : V3) (h : List V3) : (h.map d.times).getLastD 0 = d.times (h.getLastD 0) := by
  rw [List.getLastD_eq_getLast?, List.getLastD_eq_getLast?, List.getLast?_map]
  cases h.getLast? <;> simp

theorem addedResult_append (l a : List V3) (i : ℕ) : addedResult l (l ++ a) i = a[i]? := by
  unfold addedResult
  rw [List.getElem?_append_right (by omega)]
  simp

theorem addedResult_self (l : List V3) (i : ℕ) : addedResult l l i = none := by
  unfold addedResult
  simp

/-- Two runs whose loads correspond over the averaging window. -/
theorem finals_follow {p p' : UnsteadyProblem} {s s₁ z z₁ : UnsteadySolver} {pres sl pres' sl' : Bool} (hp : p.Made)
    (hp' : p'.Made) (hs : Reached p s) (h : s.run pres sl = .ok s₁) (hz : Reached p' z) (h' : z.run pres' sl' = .ok z₁)
    (hn : p'.numSteps = p.numSteps) (ha : p'.firstAveragingStep = p.firstAveragingStep)
    (hP : p'.maxPeriod = 0 ↔ p.maxPeriod = 0) (hlen : (p'.airplanesAt 0).length = (p.airplanesAt 0).length)
    (ρ : ℕ → ℕ) (hρ : ∀ i < (p.airplanesAt 0).length, ρ i < (p.airplanesAt 0).length) (f : LoadFactors)
    (hk : ∀ k, p.firstAveragingStep.toNat ≤ k → k < p.numSteps → ∀ i < (p.airplanesAt 0).length,
      ∃ L L', (s₁.loads k)[i]? = some L ∧ (z₁.loads k)[ρ i]? = some L' ∧ f.Holds L L') :
    FinalsFollow (p.airplanesAt 0).length ρ f s s₁ z z₁ := by
  obtain ⟨st, sm, ht⟩ := hs.trace hp h
  obtain ⟨st', sm', ht'⟩ := hz.trace hp' h'
  obtain ⟨f1, f2⟩ := ht.run_finals
  obtain ⟨g1, g2⟩ := ht'.run_finals
  rw [hlen] at g1 g2
  set n := (p.airplanesAt 0).length with hnn
  have hh : ∀ (g : AirplaneLoads → V3) (d : V3), (∀ L L', f.Holds L L' → g L' = d.times (g L)) → ∀ i < n,
      z₁.history g (ρ i) = (s₁.history g i).map d.times := by
    intro g d hg i hi
    unfold history averagingSteps
    rw [ht.final_eq.2.2.2.2.2.2, ht'.final_eq.2.2.2.2.2.2, hn, ha, List.map_map]
    apply List.map_congr_left
    intro k hkm
    obtain ⟨j, hj, hjk⟩ := List.getElem_of_mem hkm
    rw [List.getElem_drop, List.getElem_range] at hjk
    rw [List.length_drop, List.length_range] at hj
    obtain ⟨L, L', e1, e2, e3⟩ := hk k (by omega) (by omega) i hi
    simp only [Function.comp, e1, e2, Option.map_some, Option.getD_some]
    exact hg L L' e3
  have k1 := hh (·.forceWind) f.force fun L L' h => h.1
  have k2 := hh (·.momentWind) f.moment fun L L' h => h.2.1
  have k3 := hh (·.forceCoefficients) f.forceCoefficients fun L L' h => h.2.2.1
  have k4 := hh (·.momentCoefficients) f.momentCoefficients fun L L' h => h.2.2.2
  have entry : ∀ (e : List V3 → V3) (t : V3 → V3 → V3), (∀ d (l : List V3), e (l.map d.times) = t d (e l)) →
      ∀ l l' : ResultLists, ∀ q ∈ f.each, ∀ i < n,
      addedResult (q.1 l') (q.1 ((List.range n).foldl (z₁.appendResults e) l')) (ρ i) =
      (addedResult (q.1 l) (q.1 ((List.range n).foldl (s₁.appendResults e) l)) i).map (t q.2) := by
    intro e t het l l' q hq i hi
    rw [foldl_appendResults, foldl_appendResults]
    simp only [LoadFactors.each, List.mem_cons, List.not_mem_nil, or_false] at hq
    rcases hq with rfl | rfl | rfl | rfl <;>
      simp only [addedResult_append, List.getElem?_map, List.getElem?_range (hρ i hi), List.getElem?_range hi,
        Option.map_some, k1 i hi, k2 i hi, k3 i hi, k4 i hi, het]
  by_cases hp0 : p.maxPeriod = 0
  · obtain ⟨a1, a2, a3⟩ := f1 hp0
    obtain ⟨b1, b2, b3⟩ := g1 (hP.mpr hp0)
    refine ⟨?_, ?_, ?_⟩
    · rw [a1, b1]
      exact entry _ V3.times getLastD_times _ _
    · intro q _ i _
      rw [a2, b2, addedResult_self, addedResult_self, Option.map_none]
    · intro q _ i _
      rw [a3, b3, addedResult_self, addedResult_self, Option.map_none]
  · obtain ⟨a1, a2, a3⟩ := f2 hp0
    obtain ⟨b1, b2, b3⟩ := g2 (fun e => hp0 (hP.mp e))
    refine ⟨?_, ?_, ?_⟩
    · intro q _ i _
      rw [a1, b1, addedResult_self, addedResult_self, Option.map_none]
    · rw [a2, b2]
      exact entry _ V3.times meanOf_times _ _
    · rw [a3, b3]
      exact entry _ (fun d => d.size.times) rmsOf_times _ _

/-- A study has an airplane for each movement at every step. -/
theorem study_airplanes_length {ams : List AirplaneMovement} {om : OperatingPointMovement} {ns nc nch : Option ℕ}
    {dt : Option ℝ} {only : Bool} {p : UnsteadyProblem} (h : study ams om ns nc nch dt only = .ok p) (k : ℕ)
    (hk : k < p.numSteps) : (p.airplanesAt k).length = ams.length := by
  obtain ⟨-, -, -, -, -, -, -, -, H, O, hH, -, hall⟩ := study_parts h
  rw [← (hall k hk).1.length_eq]
  exact mapM_length hH

end Ptera
