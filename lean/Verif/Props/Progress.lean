import Verif.Lemmas.Progress
import Verif.Props.UnsteadyExample

/-!
# The progress bar of an unsteady run

C104: the bar never goes back and never past its end, and it is full when the run is. It is full too early, though: when
the last step begins.
-/

namespace Ptera

open UnsteadySolver

section
variable (p : UnsteadyProblem) (hp : p.Made) (s : UnsteadySolver) (hs : Reached p s)
include hp hs

/-- C104: the bar of every run is advanced once when the vortices are in place, by about a hundredth of the rest, and once
after every step. It never goes back and never past its end, and when all steps are done it is full. (Partial: it should be
full only then.) -/
theorem C104_bar_partial : ∃ total amounts, s.runBar = (total, amounts) ∧ amounts.length = p.numSteps + 1 ∧
      (∀ i j, i ≤ j → barAfter amounts i ≤ barAfter amounts j) ∧ (∀ j, 0 ≤ barAfter amounts j ∧ barAfter amounts j ≤ total) ∧
      barAfter amounts (p.numSteps + 1) = total ∧
      |100 * barAfter amounts 1 - (total - barAfter amounts 1)| ≤ 50 := by
  have hprob := preallocate_problem hp hs
  have hfull : barAfter s.preallocate.barUpdates (p.numSteps + 1) = s.preallocate.barTotal := by
    rw [barAfter, barUpdates_eq, List.take_of_length_le (by rw [approxTimes_eq, hprob]; simp)]
    rfl
  have hmono := fun i j (h : i ≤ j) => barAfter_mono (barUpdates_nonneg s.preallocate) h
  refine ⟨_, _, rfl, ?_, hmono, ?_, hfull, ?_⟩
  · rw [barUpdates_eq, approxTimes_eq, hprob]; simp
  · intro j
    refine ⟨?_, ?_⟩
    · have := hmono 0 j (by omega)
      simpa [barAfter] using this
    · rcases le_total j (p.numSteps + 1) with h | h
      · rw [← hfull]; exact hmono _ _ h
      · rw [barAfter, List.take_of_length_le (by rw [barUpdates_eq, approxTimes_eq, hprob]; simpa using h), barUpdates_eq]
        exact le_rfl
  · have h1 := barAfter_eq s.preallocate 0 (by omega)
    have h2 := barAfter_eq s.preallocate s.preallocate.problem.numSteps le_rfl
    rw [hprob] at h2
    rw [hfull] at h2
    rw [h2, h1, partialTimes_sum, hprob]
    have := pyRound_near (((List.range p.numSteps).map fun k => barShare s.preallocate (k + 1)).sum / 100)
    simp only [List.range_zero, List.map_nil, List.sum_nil, add_zero]
    rw [abs_le] at this ⊢
    constructor <;> linarith [this.1, this.2]

/-- C104: the amount after each step, but for the last two: in proportion to the number of bound and wake rings of the step
that comes next, `70`, `30` or `3` to one - however often the solver ran before. -/
theorem C104_amounts (k : ℕ) (hk : k + 1 < p.numSteps) :
    s.runBar.2[k + 1]? = some (((totalPanels (p.airplanesAt (k + 1)) +
      (k + 1) * totalSpanwise (p.airplanesAt (k + 1)) : ℕ) : ℝ) * (if k = 0 then 70 else if k = 1 then 30 else 3)) := by
  show s.preallocate.barUpdates[k + 1]? = _
  have hprob := preallocate_problem hp hs
  rw [barUpdates_eq, approxTimes_eq, List.getElem?_cons_succ, List.getElem?_map, hprob,
    List.getElem?_range (by omega), Option.map_some]
  unfold barShare UnsteadySolver.ringsAt timeFactor
  rw [preallocate_counts hp hs hk, hprob, if_pos ⟨by omega, hk⟩]
  simp

/-- C104 does not hold in full: the bar is full when the last step begins. -/
theorem C104_early_fails (h : 2 ≤ p.numSteps) : barAfter s.runBar.2 p.numSteps = s.runBar.1 := by
  show barAfter s.preallocate.barUpdates p.numSteps = s.preallocate.barTotal
  have hprob := preallocate_problem hp hs
  obtain ⟨n, hn⟩ : ∃ n, p.numSteps = n + 2 := ⟨p.numSteps - 2, by omega⟩
  rw [UnsteadySolver.barTotal, ← barUpdates_eq]
  have h1 := barAfter_eq s.preallocate (n + 1) (by rw [hprob, hn]; omega)
  rw [hn, h1, barUpdates_eq, approxTimes_eq, hprob, hn, List.sum_cons, List.range_succ (n := n + 1), List.map_append,
    List.sum_append]
  have : barShare s.preallocate (n + 1 + 1) = 0 := by
    unfold barShare
    rw [if_neg (by rw [hprob, hn]; omega)]
  simp [this]

/-- C104: it is not full before, if there are panels. -/
theorem C104_not_before (hpanels : ∀ k < p.numSteps, 0 < totalPanels (p.airplanesAt k)) (k : ℕ) (hk : k + 1 < p.numSteps) :
    barAfter s.runBar.2 (k + 1) < s.runBar.1 := by
  have hprob := preallocate_problem hp hs
  rw [← C104_early_fails p hp s hs (by omega)]
  obtain ⟨n, hn⟩ : ∃ n, p.numSteps = n + 1 := ⟨p.numSteps - 1, by omega⟩
  show barAfter s.preallocate.barUpdates (k + 1) < barAfter s.preallocate.barUpdates p.numSteps
  have h1 : barAfter s.preallocate.barUpdates (k + 1) < barAfter s.preallocate.barUpdates (k + 1 + 1) := by
    rw [barAfter_eq _ k (by rw [hprob]; omega), barAfter_eq _ (k + 1) (by rw [hprob]; omega), List.range_succ,
      List.map_append, List.sum_append]
    have : 0 < barShare s.preallocate (k + 1) := by
      unfold barShare timeFactor UnsteadySolver.ringsAt
      rw [if_pos ⟨by omega, by rw [hprob]; exact hk⟩, hprob]
      have := hpanels (k + 1) hk
      positivity
    simp only [List.map_cons, List.map_nil, List.sum_cons, List.sum_nil, add_zero]
    linarith
  exact lt_of_lt_of_le h1 (barAfter_mono (barUpdates_nonneg s.preallocate) (by omega))

end

/-- The hypotheses are met: with two steps of a heaving plate of one panel the bar is 141 long. It is advanced by 1 for the
vortices, by 140 after the first step and not at all after the second. -/
example (A P dt density velocity alpha beta : ℝ) (only : Bool) : ∃ p s, UnsteadyProblem.Made p ∧ p.numSteps = 2 ∧ Reached p s ∧
    (∀ k < p.numSteps, 0 < totalPanels (p.airplanesAt k)) ∧ s.runBar.1 = 141 ∧ s.runBar.2 = [1, 140, 0] := by
  obtain ⟨p, hp, -⟩ := heaving_problem A P 2 (by norm_num) dt density velocity alpha beta only
  obtain ⟨s, hs⟩ := hp.create (by norm_num)
  have hr := Reached.fresh hs
  have hpan : ∀ k < 2, totalPanels (p.airplanesAt k) = 1 := by
    intro k hk
    rw [← panelRefs_length _ (counted_of_made (hp.made.regular.made k)), (hp.refs hk).1]
    rfl
  have hspan : ∀ k < 2, totalSpanwise (p.airplanesAt k) = 1 := by
    intro k hk
    obtain ⟨-, a, w, h1, h2, h3, -⟩ := hp.step k hk
    simp [totalSpanwise, h1, h2, h3]
  have hprob := preallocate_problem hp.made hr
  have s1 : barShare s.preallocate 1 = 140 := by
    unfold barShare UnsteadySolver.ringsAt timeFactor
    rw [hprob, hp.steps, if_pos (by norm_num), preallocate_counts hp.made hr (by rw [hp.steps]; norm_num),
      hpan 1 (by norm_num), hspan 1 (by norm_num)]
    norm_num
  have s2 : barShare s.preallocate 2 = 0 := by
    unfold barShare
    rw [hprob, hp.steps, if_neg (by norm_num)]
  have hsum : s.preallocate.partialTimes.sum = 140 := by
    rw [partialTimes_sum, hprob, hp.steps]
    simp [List.range_succ, s1, s2]
  have hround : pyRound ((140 : ℝ) / 100) = 1 := by
    have hf : ⌊(140 : ℝ) / 100⌋ = 1 := by rw [Int.floor_eq_iff]; norm_num
    unfold pyRound
    rw [if_pos (by rw [← Int.self_sub_floor, hf]; norm_num), hf]
  have htimes : s.preallocate.approxTimes = [1, 140, 0] := by
    rw [approxTimes_eq, hsum, hround, hprob, hp.steps]
    simp [List.range_succ, s1, s2]
  refine ⟨p, s, hp.made, hp.steps, hr, ?_, ?_, ?_⟩
  · intro k hk
    rw [hp.steps] at hk
    rw [hpan k hk]
    norm_num
  · show s.preallocate.approxTimes.sum = 141
    rw [htimes]
    norm_num
  · show s.preallocate.barUpdates = _
    rw [barUpdates_eq, htimes]

end Ptera
