import Verif.Lemmas.FinalLoads
import Verif.Props.UnsteadyLoads
import Verif.Props.Construction

/-!
# C34 for the unsteady solver: solving again
-/

namespace Ptera

open UnsteadySolver

variable {p : UnsteadyProblem} {s s' : UnsteadySolver} {pres sl : Bool}

/-- What two finished solvers of one problem show at every step is the same: vortex rings, loads (from the first
results step on) of panels and airplanes, wake rings and the flow everywhere. -/
def SameResults (p : UnsteadyProblem) (a b : UnsteadySolver) : Prop :=
  ∀ k < p.numSteps,
    (∀ r ∈ panelRefs (p.airplanesAt k), (a.panels k r).ring = (b.panels k r).ring ∧
      (p.firstResultsStep ≤ (k : ℤ) → (a.panels k r).loads = (b.panels k r).loads)) ∧
    (p.firstResultsStep ≤ (k : ℤ) → a.loads k = b.loads k) ∧
    a.wakeArrays[k]? = b.wakeArrays[k]? ∧ ∀ q, flow a k q = flow b k q

/-- Wings without a chordwise panel are not accepted, so no problem contains one. -/
theorem UnsteadyProblem.Made.chordwise (hp : p.Made) : p.Chordwise := by
  intro w wing hw
  obtain ⟨sections, le, n, sym, u, m, sp, h⟩ := hp.regular.wing_made hw
  rw [(Wing.create_ok _ _ _ _ _ _ _ _ h).1]
  exact ((C17_wing_accepts sections le n sym u m sp).mp ⟨_, h⟩).2.1

/-- C34 (unsteady solver): take two solvers of one problem, each new, run before any number of times in any mode, or
made for a problem another solver already ran on. If one run succeeds, so does the other's, and both show the same
results. -/
theorem C34_unsteady (hp : p.Made) {a b a' : UnsteadySolver} (ha : Reached p a) (hb : Reached p b)
    (h : a.run pres sl = .ok a') (sl' : Bool) : ∃ b', b.run pres sl' = .ok b' ∧ SameResults p a' b' := by
  obtain ⟨b', hb', hr⟩ := agree_run hp.regular hp.chordwise (ha.good hp.regular) (hb.good hp.regular) h sl'
  obtain ⟨st1, sm1, t1⟩ := ha.trace hp h
  obtain ⟨st2, sm2, t2⟩ := hb.trace hp hb'
  refine ⟨b', hb', ?_⟩
  intro k hk
  obtain ⟨_, h2, h3⟩ := agree_finished hp.regular hp.chordwise t1 t2 hr k hk
  refine ⟨fun r hmem => ⟨hr k hk r hmem, fun hf => (agree_loads hp.regular hp.chordwise t1 t2 hr hk hf).1 r hmem⟩,
    fun hf => (agree_loads hp.regular hp.chordwise t1 t2 hr hk hf).2, ?_, h3⟩
  have l1 := t1.arraysLen
  have l2 := t2.arraysLen
  have hk1 : k < a'.wakeArrays.length := by omega
  have hk2 : k < b'.wakeArrays.length := by omega
  rw [List.getD_eq_getElem?_getD, List.getD_eq_getElem?_getD, List.getElem?_eq_getElem hk1,
    List.getElem?_eq_getElem hk2, Option.getD_some, Option.getD_some] at h2
  rw [List.getElem?_eq_getElem hk1, List.getElem?_eq_getElem hk2, h2]

/-- C34 (unsteady solver, reruns of one object): if the first run succeeds, so does every further one, and the
results stay those of the first run. -/
theorem C34_unsteady_reruns (hp : p.Made) (hs : Reached p s) (h : s.run pres sl = .ok s') (n : ℕ) :
    ∃ t, runTimes (fun s => s.run pres sl) (n + 1) s = .ok t ∧ SameResults p s' t ∧ Reached p t := by
  have key : ∀ n (u : UnsteadySolver), Reached p u → ∃ t, runTimes (fun s => s.run pres sl) (n + 1) u = .ok t ∧
      SameResults p s' t ∧ Reached p t := by
    intro n
    induction n with
    | zero =>
      intro u hu
      obtain ⟨u', hu', hsame⟩ := C34_unsteady hp hs hu h sl
      refine ⟨u', ?_, hsame, hu.rerun hu'⟩
      simp [runTimes, hu', bind, Except.bind]
    | succ n ih =>
      intro u hu
      obtain ⟨u', hu', _⟩ := C34_unsteady hp hs hu h sl
      obtain ⟨t, ht, h1, h2⟩ := ih u' (hu.rerun hu')
      refine ⟨t, ?_, h1, h2⟩
      rw [runTimes, hu']
      exact ht
  exact key n s hs

/-- C34 fails for the lists (unsteady solver): every run appends to the lists of wake-ring counts and wake arrays,
and appends the airplanes' results again to the problem's result lists. After two runs of a new solver each result
list is that of the first run twice. -/
theorem C34_unsteady_lists (hp : p.Made) (hs : UnsteadySolver.create p = .ok s)
    (h : s.run pres sl = .ok s') {s'' : UnsteadySolver} (h' : s'.run pres sl = .ok s'') (hdt : 0 < p.deltaTime)
    (hP : 0 ≤ p.maxPeriod) :
    s'.wakeCounts.length = p.numSteps ∧ s''.wakeCounts.length = 2 * p.numSteps ∧
    s''.wakeArrays.length = 2 * p.numSteps ∧
    (∀ list ∈ [ResultLists.forces, ResultLists.forceCoefficients, ResultLists.moments,
        ResultLists.momentCoefficients],
      list s''.final = list s'.final ++ list s'.final ∧ list s''.finalMean = list s'.finalMean ++ list s'.finalMean ∧
      list s''.finalRms = list s'.finalRms ++ list s'.finalRms) ∧
    (p.maxPeriod = 0 → s'.final.forces.length = (p.airplanesAt 0).length) ∧
    (p.maxPeriod ≠ 0 → s'.finalMean.forces.length = (p.airplanesAt 0).length) := by
  have hr0 : Reached p s := .fresh hs
  have hr1 : Reached p s' := .rerun hr0 h
  obtain ⟨st1, sm1, t1⟩ := hr0.trace hp h
  obtain ⟨st2, sm2, t2⟩ := hr1.trace hp h'
  obtain ⟨s2, hs2, hsame⟩ := C34_unsteady hp hr0 hr1 h sl
  rw [h'] at hs2
  cases hs2
  have hfresh : s.wakeCounts = [] ∧ s.wakeArrays = [] ∧ s.final = {} ∧ s.finalMean = {} ∧ s.finalRms = {} := by
    unfold UnsteadySolver.create at hs
    split at hs
    · cases hs
    · cases hs; exact ⟨rfl, rfl, rfl, rfl, rfl⟩
  obtain ⟨f1, f2, f3, f4, f5⟩ := hfresh
  obtain ⟨c1, c2⟩ := t1.lists
  obtain ⟨d1, d2⟩ := t2.lists
  rw [f1] at c1
  rw [f2] at c2
  simp only [List.length_nil, Nat.zero_add] at c1 c2
  obtain ⟨w1, w2, _⟩ := hp.window (hr0.steps hp) hdt hP
  have hhist : ∀ f i, s''.history f i = s'.history f i := by
    intro f i
    unfold history averagingSteps
    rw [t1.final_eq.2.2.2.2.2.2, t2.final_eq.2.2.2.2.2.2]
    apply List.map_congr_left
    intro k hk
    have hk1 : k < p.numSteps := by simpa using List.mem_of_mem_drop hk
    have hk2 : p.firstAveragingStep.toNat ≤ k := by
      obtain ⟨i, hi, rfl⟩ := List.getElem_of_mem hk
      simp
    rw [(hsame k hk1).2.1 (by omega)]
  obtain ⟨g1, g2⟩ := t1.run_finals
  obtain ⟨k1, k2⟩ := t2.run_finals
  refine ⟨c1, by omega, by omega, ?_, ?_, ?_⟩
  · intro list hlist
    by_cases h0 : p.maxPeriod = 0
    · obtain ⟨a1, a2, a3⟩ := g1 h0
      obtain ⟨b1, b2, b3⟩ := k1 h0
      rw [foldl_appendResults] at a1 b1
      rw [b1, a1, b2, b3, a2, a3, f3, f4, f5]
      simp only [List.mem_cons, List.not_mem_nil, or_false] at hlist
      rcases hlist with rfl | rfl | rfl | rfl <;> simp [hhist]
    · obtain ⟨a1, a2, a3⟩ := g2 h0
      obtain ⟨b1, b2, b3⟩ := k2 h0
      rw [foldl_appendResults] at a2 a3 b2 b3
      rw [b2, a2, b3, b1, a1, a3, f3, f4, f5]
      simp only [List.mem_cons, List.not_mem_nil, or_false] at hlist
      rcases hlist with rfl | rfl | rfl | rfl <;> simp [hhist]
  · intro h0
    rw [(g1 h0).1, foldl_appendResults, f3]
    simp
  · intro h0
    rw [(g2 h0).2.1, foldl_appendResults, f4]
    simp

end Ptera
