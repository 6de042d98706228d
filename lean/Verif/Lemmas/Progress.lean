import Verif.Spec.Progress
import Verif.Lemmas.OutputRuns
import Verif.Lemmas.OutputLemmas

/-! Auxiliary facts about the amounts a progress bar is advanced by. -/

namespace Ptera

open UnsteadySolver

/-- The part of the bar meant for step `k`. -/
noncomputable def barShare (s : UnsteadySolver) (k : ℕ) : ℝ :=
  if 1 ≤ k ∧ k < s.problem.numSteps then (s.ringsAt k : ℝ) * timeFactor k else 0

theorem barShare_nonneg (s : UnsteadySolver) (k : ℕ) : 0 ≤ barShare s k := by
  unfold barShare timeFactor
  split
  · positivity
  · exact le_rfl

theorem partialTimes_sum (s : UnsteadySolver) :
    s.partialTimes.sum = ((List.range s.problem.numSteps).map fun k => barShare s (k + 1)).sum := by
  have e : s.partialTimes = barShare s 0 :: (List.range s.problem.numSteps).map fun k => barShare s (k + 1) := by
    unfold UnsteadySolver.partialTimes
    rw [List.range_succ_eq_map, List.map_cons, List.map_map]
    rfl
  rw [e, List.sum_cons]
  simp [barShare]

theorem approxTimes_eq (s : UnsteadySolver) : s.approxTimes =
    (pyRound (s.partialTimes.sum / 100) : ℝ) :: (List.range s.problem.numSteps).map fun k => barShare s (k + 1) := by
  unfold UnsteadySolver.approxTimes
  conv_lhs => arg 1; unfold UnsteadySolver.partialTimes
  rw [List.range_succ_eq_map, List.map_cons, List.map_map, List.set_cons_zero]
  rfl

theorem barUpdates_eq (s : UnsteadySolver) : s.barUpdates = s.approxTimes := by
  unfold UnsteadySolver.barUpdates
  rw [approxTimes_eq]
  congr 1
  apply List.map_congr_left
  intro k hk
  rw [List.mem_range] at hk
  simp [hk]

theorem barAfter_eq (s : UnsteadySolver) (k : ℕ) (hk : k ≤ s.problem.numSteps) :
    barAfter s.barUpdates (k + 1) = (pyRound (s.partialTimes.sum / 100) : ℝ) +
      ((List.range k).map fun i => barShare s (i + 1)).sum := by
  rw [barAfter, barUpdates_eq, approxTimes_eq, List.take_succ_cons, List.sum_cons, ← List.map_take, List.take_range,
    min_eq_left hk]

theorem barAfter_mono {l : List ℝ} (h : ∀ x ∈ l, 0 ≤ x) {i j : ℕ} (hij : i ≤ j) : barAfter l i ≤ barAfter l j := by
  unfold barAfter
  rw [show l.take j = l.take i ++ (l.drop i).take (j - i) by
    rw [← List.take_add, Nat.add_sub_cancel' hij], List.sum_append]
  have : 0 ≤ ((l.drop i).take (j - i)).sum :=
    List.sum_nonneg fun x hx => h x (List.mem_of_mem_drop (List.mem_of_mem_take hx))
  linarith

theorem barUpdates_nonneg (s : UnsteadySolver) : ∀ x ∈ s.barUpdates, 0 ≤ x := by
  rw [barUpdates_eq, approxTimes_eq]
  have hr : 0 ≤ s.partialTimes.sum := by
    rw [partialTimes_sum]
    apply List.sum_nonneg
    intro x hx
    obtain ⟨k, -, rfl⟩ := List.mem_map.mp hx
    exact barShare_nonneg s _
  intro x hx
  rcases List.mem_cons.mp hx with rfl | hx
  · exact_mod_cast pyRound_nonneg (by positivity)
  · obtain ⟨k, -, rfl⟩ := List.mem_map.mp hx
    exact barShare_nonneg s _

theorem preallocate_problem {p : UnsteadyProblem} (hp : p.Made) {s : UnsteadySolver} (hs : Reached p s) :
    s.preallocate.problem = p := (hs.good hp.regular).problem

theorem preallocate_counts {p : UnsteadyProblem} (hp : p.Made) {s : UnsteadySolver} (hs : Reached p s) {k : ℕ}
    (hk : k < p.numSteps) : s.preallocate.wakeCounts.getD k 0 = k * totalSpanwise (p.airplanesAt k) := by
  have hprob : s.problem = p := (hs.good hp.regular).problem
  have e : s.preallocate.wakeCounts = s.wakeCounts ++ stepCounts p := by
    rw [← hprob]; rfl
  have hg : (stepCounts p)[k]? = some (k * totalSpanwise (p.airplanesAt k)) := by simp [stepCounts, hk]
  rw [e, List.getD_eq_getElem?_getD]
  rcases Reached.counts hp hs with h | ⟨rest, h⟩
  · rw [h, List.nil_append, hg]; rfl
  · rw [h, List.append_assoc, List.getElem?_append_left (by simp [stepCounts, hk]), hg]; rfl

end Ptera
