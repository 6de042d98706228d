import Verif.Lemmas.Operations
import Verif.Props.Wake
import Verif.Props.UnsteadyReruns
import Verif.Props.UnsteadyExample
import Verif.Props.Overlap

/-!
# C88: runs that raise or are interrupted
-/

namespace Ptera

open UnsteadySolver

variable {p : UnsteadyProblem} {s s' a : UnsteadySolver} {pres sl : Bool}

/-- C88: a run is its operations, one after the other. -/
theorem C88_operations (s : UnsteadySolver) (pres sl : Bool) :
    s.run pres sl = perform (runOperations s.problem.numSteps pres sl) s := run_operations s pres sl

theorem foldlM_error {σ α : Type} (f : σ → α → Except Err σ) : ∀ (l : List α) (s : σ) (e : Err),
    l.foldlM f s = .error e → ∃ t x, f t x = .error e
  | [], s, e, h => by cases h
  | x :: l, s, e, h => by
    cases hf : f s x with
    | error e' =>
      rw [List.foldlM_cons, hf] at h
      cases h
      exact ⟨s, x, hf⟩
    | ok t =>
      rw [List.foldlM_cons, hf] at h
      exact foldlM_error f l t e h

theorem writeAt_error {α : Type} {l : List α} {i : ℕ} {x : α} {e : Err} (h : writeAt l i x = .error e) :
    e = .indexError := by
  unfold writeAt at h
  split at h
  · cases h
  · cases h; rfl

theorem collapseGeometry_error {e : Err} (h : s.collapseGeometry = .error e) : e ≠ .linAlgError := by
  have hbind : ∀ {α β : Type} {x : Except Err α} {f : α → β}, (x >>= fun a => pure (f a)) = .error e →
      x = .error e := by
    intro α β x f hx
    cases x with
    | error e' => cases hx; rfl
    | ok a => cases hx
  unfold collapseGeometry at h
  cases h1 : (panelRefs s.airplanes).foldlM collapsePanel (s, 0) with
  | error e' =>
    rw [h1] at h
    cases h
    obtain ⟨t, r, h2⟩ := foldlM_error _ _ _ _ h1
    unfold collapsePanel at h2
    dsimp only at h2
    split at h2
    · cases h2; simp
    · rw [writeAt_error (hbind h2)]; simp
  | ok t =>
    rw [h1] at h
    dsimp only [bind, Except.bind] at h
    cases h3 : t.1.wakeRefs.foldlM (collapseWakeRing t.1.objects) (t.1.wakeArrays.getD t.1.step [], 0) with
    | error e' =>
      rw [h3] at h
      cases h
      obtain ⟨u, r, h2⟩ := foldlM_error _ _ _ _ h3
      unfold collapseWakeRing at h2
      split at h2
      · cases h2; simp
      · rw [writeAt_error (hbind h2)]; simp
    | ok w =>
      rw [h3] at h
      dsimp only at h
      split at h
      · have h4 := hbind h
        obtain ⟨u, r, h2⟩ := foldlM_error _ _ _ _ h4
        unfold collapseLast at h2
        split at h2
        · cases h2; simp
        · rw [writeAt_error (hbind h2)]; simp
      · cases h

/-- C88: a run that raises does so in the solution of the linear system of some step, all operations before it being
done, and leaves a solver for which all the theorems about solvers hold. -/
theorem C88_raised (hp : p.Made) (hs : Reached p s) {e : Err} (h : s.run pres sl = .error e) :
    e = .linAlgError ∧ ∃ first a, first ++ [calculateVortexStrengths] <+: runOperations p.numSteps pres sl ∧
      perform first s = .ok a ∧ a.calculateVortexStrengths = .error e ∧ Reached p a := by
  have he := C40_only_singular_fails hp hs e h
  refine ⟨he, ?_⟩
  rw [run_operations, (hs.good hp.regular).problem] at h
  obtain ⟨first, op, a, h1, h2, h3⟩ := perform_error _ _ _ h
  have ha : Reached p a := .aborted hs ((List.prefix_append first [op]).trans h1) h2
  have hop : op = calculateVortexStrengths := by
    rcases mem_runOperations (h1.subset (List.mem_append_right first (List.mem_singleton.mpr rfl)))
      with o | o | ⟨k, _, o⟩ | o | o
    · subst o; cases h3
    · subst o; cases h3
    · unfold stepOperations at o
      simp only [List.mem_cons, List.not_mem_nil, or_false] at o
      rcases o with o | o | o | o | o | o | o | o | o
      · subst o; cases h3
      · subst o; exact absurd he (collapseGeometry_error h3)
      · subst o; cases h3
      · subst o; cases h3
      · subst o; cases h3
      · exact o
      · subst o; cases h3
      · subst o; cases h3
      · subst o; cases h3
    · subst o; cases h3
    · subst o; cases h3
  subst hop
  exact ⟨first, a, h1, h2, h3, ha⟩

/-- C88: after a run stopped anywhere, running the same solver, or a new one on the same problem, succeeds exactly when
the run of a new solver of an untouched problem does, and shows the same results. -/
theorem C88_again (hp : p.Made) {f : UnsteadySolver} (hf : UnsteadySolver.create p = .ok f) (hs : Reached p s)
    {ops : List Operation} (hops : ops <+: runOperations p.numSteps pres sl) (h : perform ops s = .ok a)
    (pres' sl' : Bool) :
    (∀ f', f.run pres' sl' = .ok f' →
      (∃ a', a.run pres' sl' = .ok a' ∧ SameResults p f' a') ∧
      ∃ b b', UnsteadySolver.create p a.toUnsteadyObjects = .ok b ∧ b.run pres' sl' = .ok b' ∧
        SameResults p f' b') ∧
    ∀ e, f.run pres' sl' = .error e → a.run pres' sl' = .error e ∧
      ∃ b, UnsteadySolver.create p a.toUnsteadyObjects = .ok b ∧ b.run pres' sl' = .error e := by
  have hrf : Reached p f := .fresh hf
  have hra : Reached p a := .aborted hs hops h
  obtain ⟨b, hb⟩ : ∃ b, UnsteadySolver.create p a.toUnsteadyObjects = .ok b := by
    unfold UnsteadySolver.create at hf ⊢
    split at hf
    · cases hf
    · exact ⟨_, rfl⟩
  have hrb : Reached p b := .another hra hb
  constructor
  · intro f' h'
    obtain ⟨a', h1, h2⟩ := C34_unsteady hp hrf hra h' sl'
    obtain ⟨b', h3, h4⟩ := C34_unsteady hp hrf hrb h' sl'
    exact ⟨⟨a', h1, h2⟩, b, b', hb, h3, h4⟩
  · intro e he
    have key : ∀ c, Reached p c → c.run pres' sl' = .error e := by
      intro c hc
      cases hrun : c.run pres' sl' with
      | ok c' =>
        obtain ⟨f', h1, _⟩ := C34_unsteady hp hc hrf hrun sl'
        rw [he] at h1
        cases h1
      | error e' => rw [C40_only_singular_fails hp hrf e he, C40_only_singular_fails hp hc e' hrun]
    exact ⟨key a hra, b, hb, key b hrb⟩

/-- C88, final results: if the run of a new solver was stopped before the final results were appended, the run that
follows appends the results of an undisturbed run, once. -/
theorem C88_final (hp : p.Made) {f f' a' : UnsteadySolver} (hf : UnsteadySolver.create p = .ok f)
    (hdt : 0 < p.deltaTime) (hP : 0 ≤ p.maxPeriod) {ops : List Operation} (hops : ops <+: beforeStep pres p.numSteps)
    (h : perform ops f = .ok a) {pres' sl' : Bool} (h' : f.run pres' sl' = .ok f') (ha : a.run pres' sl' = .ok a') :
    a'.final = f'.final ∧ a'.finalMean = f'.finalMean ∧ a'.finalRms = f'.finalRms := by
  obtain ⟨later, hlater, _⟩ := beforeStep_prefix pres false (le_refl p.numSteps)
  have hops' : ops <+: runOperations p.numSteps pres false := by
    rw [hlater]
    exact hops.trans (List.prefix_append _ _)
  have hrf : Reached p f := .fresh hf
  have hra : Reached p a := .aborted hrf hops' h
  have hlists : a.final = f.final ∧ a.finalMean = f.finalMean ∧ a.finalRms = f.finalRms := by
    refine perform_keeps (fun t => t.final = f.final ∧ t.finalMean = f.finalMean ∧ t.finalRms = f.finalRms) ops f a
      ?_ ⟨rfl, rfl, rfl⟩ h
    intro op hop t t' ht he
    have hmem := hops.subset hop
    unfold beforeStep at hmem
    simp only [List.mem_append, List.mem_cons, List.not_mem_nil, or_false, List.mem_flatMap, List.mem_range] at hmem
    rcases hmem with (o | o) | ⟨k, _, o⟩
    · subst o; cases he; exact ht
    · subst o; cases he; exact ht
    · obtain ⟨_, _, e1, e2, e3, _⟩ := step_keeps o he
      rw [e1, e2, e3]
      exact ht
  obtain ⟨e1, e2, e3⟩ := hlists
  obtain ⟨st1, sm1, t1⟩ := hrf.trace hp h'
  obtain ⟨st2, sm2, t2⟩ := hra.trace hp ha
  obtain ⟨a'', ha'', hsame⟩ := C34_unsteady hp hrf hra h' sl'
  rw [ha] at ha''
  cases ha''
  obtain ⟨w1, w2, _⟩ := hp.window (hrf.steps hp) hdt hP
  have hhist : ∀ g i, a'.history g i = f'.history g i := by
    intro g i
    unfold history averagingSteps
    rw [t1.final_eq.2.2.2.2.2.2, t2.final_eq.2.2.2.2.2.2]
    apply List.map_congr_left
    intro k hk
    have hk1 : k < p.numSteps := by simpa using List.mem_of_mem_drop hk
    have hk2 : p.firstAveragingStep.toNat ≤ k := by
      obtain ⟨i, hi, rfl⟩ := List.getElem_of_mem hk
      simp
    rw [(hsame k hk1).2.1 (by omega)]
  obtain ⟨g1, g2⟩ := t1.run_finals
  obtain ⟨k1, k2⟩ := t2.run_finals
  by_cases h0 : p.maxPeriod = 0
  · obtain ⟨a1, a2, a3⟩ := g1 h0
    obtain ⟨b1, b2, b3⟩ := k1 h0
    rw [foldl_appendResults] at a1 b1
    rw [b1, a1, b2, b3, a2, a3, e1, e2, e3]
    simp [hhist]
  · obtain ⟨a1, a2, a3⟩ := g2 h0
    obtain ⟨b1, b2, b3⟩ := k2 h0
    rw [foldl_appendResults] at a2 a3 b2 b3
    rw [b2, a2, b3, b1, a1, a3, e1, e2, e3]
    simp [hhist]

/-- C88: what a stopped run leaves at the steps it completed is what a complete run gives there. -/
theorem C88_completed_steps (hp : p.Made) (hs : Reached p s) (h : s.run pres sl = .ok s') {k : ℕ}
    (hk : k ≤ p.numSteps) {ops : List Operation} {sl' : Bool} (hops : ops <+: runOperations p.numSteps pres sl')
    (hdone : beforeStep pres k <+: ops) (ha : perform ops s = .ok a) : SameBefore k a s' := by
  rw [run_operations, (hs.good hp.regular).problem] at h
  obtain ⟨later, hl, _⟩ := beforeStep_prefix pres sl hk
  obtain ⟨later', hl', _⟩ := beforeStep_prefix pres sl' hk
  obtain ⟨rest, rfl⟩ := hdone
  rw [hl, perform_append] at h
  rw [perform_append] at ha
  obtain ⟨t, h1, h2⟩ := bind_ok.mp h
  obtain ⟨t', h3, h4⟩ := bind_ok.mp ha
  rw [h1] at h3
  cases h3
  have hrest : rest <+: later' := by
    rw [hl'] at hops
    exact (List.prefix_append_right_inj _).mp hops
  exact (later_before hk hl' hrest h4).trans' (later_before hk hl List.prefix_rfl h2).symm'

/-- A concrete case: the run of the heaving plate, stopped after any number of its operations, leaves a solver that can
be run again; from step `k` on, the steps before `k` are complete. -/
example (A P : ℝ) (n : ℕ) (hn : 0 < n) (dt density velocity alpha : ℝ) (ha : |alpha| ≤ 90) (hdt : 0 < dt)
    (hv : 0 < velocity) (only pres sl : Bool) :
    ∃ (p : UnsteadyProblem) (f : UnsteadySolver), p.Made ∧ p.numSteps = n ∧ 0 < p.deltaTime ∧ 0 ≤ p.maxPeriod ∧
      UnsteadySolver.create p = .ok f ∧
      (∀ ops, ops <+: runOperations n pres sl → ∃ a a', perform ops f = .ok a ∧ Reached p a ∧ a.run pres sl = .ok a') ∧
      ∀ k < n, ∃ a : UnsteadySolver, beforeStep pres k ++ (stepOperations pres k).take 6 <+: runOperations n pres sl ∧
        perform (beforeStep pres k ++ (stepOperations pres k).take 6) f = .ok a := by
  obtain ⟨p, hp, _⟩ := heaving_problem A P n hn dt density velocity alpha 0 only
  obtain ⟨f, hf⟩ := hp.create hn
  have hr : Reached p f := .fresh hf
  have hd := flies_ahead density velocity alpha ha
  have key : ∀ ops, ops <+: runOperations n pres sl → ∃ a a', perform ops f = .ok a ∧ Reached p a ∧
      a.run pres sl = .ok a' := by
    intro ops hops
    obtain ⟨s', h'⟩ := hp.run hdt.le hv.le hd hr pres sl
    rw [run_operations, (hr.good hp.made.regular).problem, hp.steps] at h'
    obtain ⟨rest, hrest⟩ := id hops
    rw [← hrest, perform_append] at h'
    obtain ⟨a, h1, _⟩ := bind_ok.mp h'
    have hra : Reached p a := .aborted hr (by rw [hp.steps]; exact hops) h1
    obtain ⟨a', h2⟩ := hp.run hdt.le hv.le hd hra pres sl
    exact ⟨a, a', h1, hra, h2⟩
  refine ⟨p, f, hp.made, hp.steps, by rw [hp.dt]; exact hdt, by rw [hp.period]; exact le_max_left _ _, hf, key, ?_⟩
  intro k hk
  have hpre : beforeStep pres k ++ (stepOperations pres k).take 6 <+: runOperations n pres sl := by
    obtain ⟨later, hl, -⟩ := beforeStep_prefix (n := n) pres sl (Nat.succ_le_of_lt hk)
    rw [hl]
    refine List.IsPrefix.trans ?_ (List.prefix_append _ _)
    unfold beforeStep
    rw [List.range_succ, List.flatMap_append, ← List.append_assoc]
    simp only [List.flatMap_cons, List.flatMap_nil, List.append_nil]
    exact (List.prefix_append_right_inj _).mpr (List.take_prefix _ _)
  obtain ⟨a, _, h1, _⟩ := key _ hpre
  exact ⟨a, hpre, h1⟩

/-- A concrete case of a run that raises: two heaving plates in the same place. -/
example (A P : ℝ) (n : ℕ) (hn : 0 < n) (dt : ℝ) (op : OperatingPoint) (only pres sl : Bool) :
    ∃ p s, p.Made ∧ p.numSteps = n ∧ Reached p s ∧ s.run pres sl = .error .linAlgError := by
  obtain ⟨m, -, hm⟩ := PlatePair.movement_at A P
  obtain ⟨-, p, hp, hmade, hsteps, -, -, hst⟩ := hm 0 0 n hn dt op only
  obtain ⟨s, hs⟩ : ∃ s, UnsteadySolver.create p = .ok s := by
    have hlen := hmade.regular.steps
    rw [hsteps] at hlen
    unfold UnsteadySolver.create
    cases hsp : p.steadyProblems with
    | nil => rw [hsp] at hlen; simp at hlen; omega
    | cons a l => exact ⟨_, rfl⟩
  obtain ⟨-, a, b, u, v, C, D, c1, c2, c3, c4, -⟩ := hst 0 hn
  refine ⟨p, s, hmade, hsteps, .fresh hs, ?_⟩
  exact (C89_movement_twice hp 0 1 _ (by simp) rfl rfl (by rw [hsteps]; exact hn)
    ⟨a, by rw [c1]; rfl, u, by rw [c2]; simp, 0, 0, C, by rw [c4]; rfl⟩).2 s pres sl (.fresh hs)

end Ptera
