import Verif.Lemmas.OutputLemmas
import Verif.Lemmas.FinalLoads

/-! What output.py reads from a solver that has run. -/

namespace Ptera
namespace UnsteadySolver

variable {p : UnsteadyProblem} {pres : Bool} {s s' : UnsteadySolver} {st sm : ℕ → UnsteadySolver}

/-- The wake ring counts of all steps. -/
noncomputable def stepCounts (p : UnsteadyProblem) : List ℕ :=
  (List.range p.numSteps).map fun k => k * totalSpanwise (p.airplanesAt k)

theorem Trace.counts (h : Trace p pres s.begun s' st sm) : s'.wakeCounts = s.wakeCounts ++ stepCounts p := by
  have hstep : ∀ k, 0 ≤ k → k < p.numSteps → (st (k + 1)).wakeCounts = (st k).wakeCounts := by
    intro k _ hk
    obtain ⟨x, hx⟩ := h.solved k hk
    obtain ⟨_, _, e1, _, _, _, _, _, e2, _⟩ := (h.shed k hk).same
    rw [e2, hx.counts]
  have hcounts : s'.wakeCounts = (st p.numSteps).wakeCounts := by
    obtain ⟨sl, e⟩ := h.finish
    have hr := (st p.numSteps).finalize_rest
    cases sl
    · simp only [Bool.false_eq_true, if_false] at e
      rw [e, hr]
    · simp only [if_true] at e
      rw [e]
      unfold calculateStreamlines
      rw [hr]
  have hprob : s.problem = p := by
    have := (h.inv 0 (by omega)).problem
    rw [h.start] at this
    exact this
  rw [hcounts, persist (st := st) (fun t => t.wakeCounts) 0 p.numSteps (by omega) hstep, h.start]
  change s.wakeCounts ++ _ = _
  rw [hprob]
  rfl

theorem Reached.counts (hp : p.Made) (h : Reached p s) :
    s.wakeCounts = [] ∨ ∃ rest, s.wakeCounts = stepCounts p ++ rest := by
  induction h with
  | fresh hc =>
    unfold create at hc
    split at hc
    · simp at hc
    · cases hc; exact Or.inl rfl
  | rerun h0 hrun ih =>
    obtain ⟨st, sm, ht⟩ := h0.trace hp hrun
    right
    rcases ih with e | ⟨rest, e⟩
    · exact ⟨[], by rw [ht.counts, e]; simp⟩
    · exact ⟨rest ++ stepCounts p, by rw [ht.counts, e, List.append_assoc]⟩
  | aborted h0 hops hrun ih =>
    refine (aborted_keeps (fun t => t.problem = p ∧ (t.wakeCounts = [] ∨ ∃ rest, t.wakeCounts = stepCounts p ++ rest))
      hops hrun ⟨(h0.good hp.regular).problem, ih⟩ ?_ (fun t ht => ht) ?_ ?_ (fun t ht => ht)).2
    · rintro t ⟨ht, e | ⟨rest, e⟩⟩
      · refine ⟨ht, Or.inr ⟨[], ?_⟩⟩
        change t.wakeCounts ++ _ = _
        rw [e, ht]
        simp [stepCounts]
      · refine ⟨ht, Or.inr ⟨rest ++ stepCounts p, ?_⟩⟩
        change t.wakeCounts ++ _ = _
        rw [e, ht, List.append_assoc]
        rfl
    · intro k _ op hop t t' ht he
      obtain ⟨e1, e2, _⟩ := step_keeps hop he
      rw [e1, e2]
      exact ht
    · intro t ht
      obtain ⟨a, b, c, e, _⟩ := finalize_keeps t
      rw [e]
      exact ht
  | another _ hc _ =>
    unfold create at hc
    split at hc
    · simp at hc
    · cases hc; exact Or.inl rfl

theorem run_counts (hp : p.Made) (hs : Reached p s) {sl : Bool} (h : s.run pres sl = .ok s') {k : ℕ}
    (hk : k < p.numSteps) : s'.wakeCounts[k]? = some (k * totalSpanwise (p.airplanesAt k)) := by
  have hl : (stepCounts p).length = p.numSteps := by simp [stepCounts]
  have hg : (stepCounts p)[k]? = some (k * totalSpanwise (p.airplanesAt k)) := by simp [stepCounts, hk]
  rcases Reached.counts hp (hs.rerun h) with e | ⟨rest, e⟩
  · obtain ⟨st, sm, ht⟩ := hs.trace hp h
    have := ht.counts
    rw [e] at this
    have := congrArg List.length this
    simp [hl] at this
    omega
  · rw [e, List.getElem?_append_left (by omega), hg]

end UnsteadySolver
end Ptera
