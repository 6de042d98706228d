import Verif.Lemmas.UnsteadyInduct

/-! A run as a sequence of states, and what the finished solver still shows of each of them. -/

namespace Ptera

theorem foldlM_range_trace {σ : Type} (f : σ → ℕ → Except Err σ) :
    ∀ (n : ℕ) (s s' : σ), (List.range n).foldlM f s = .ok s' →
      ∃ st : ℕ → σ, st 0 = s ∧ st n = s' ∧ ∀ k < n, f (st k) k = .ok (st (k + 1)) := by
  intro n
  induction n with
  | zero =>
    intro s s' h
    simp only [List.range_zero, List.foldlM_nil, pure, Except.pure, Except.ok.injEq] at h
    exact ⟨fun _ => s, rfl, h, by simp⟩
  | succ n ih =>
    intro s s' h
    rw [List.range_succ, List.foldlM_append] at h
    obtain ⟨s1, h1, h2⟩ := bind_ok.mp h
    simp only [List.foldlM_cons, List.foldlM_nil] at h2
    have h2 : f s1 n = .ok s' := by
      obtain ⟨s2, h2, h3⟩ := bind_ok.mp h2
      simp only [pure, Except.pure, Except.ok.injEq] at h3
      rw [← h3]
      exact h2
    obtain ⟨st, e0, en, hs⟩ := ih s s1 h1
    refine ⟨fun k => if k ≤ n then st k else s', by simp [e0], by simp, ?_⟩
    intro k hk
    by_cases hkn : k = n
    · subst hkn
      simp only [le_refl, if_true]
      rw [if_neg (by omega), en]
      exact h2
    · simp only
      rw [if_pos (by omega), if_pos (by omega)]
      exact hs k (by omega)

namespace UnsteadySolver

theorem initializeStep_spec (as : List Airplane) (v : V3) (dt : ℝ) (heap : PanelHeap) :
    (∀ r ∈ panelRefs as, initializeStep as v dt heap r = { heap r with ring := some (panelRing as v dt r) }) ∧
    (∀ r, r ∉ panelRefs as → initializeStep as v dt heap r = heap r) := by
  have := foldl_update (panelRefs as) id (fun r st => { st with ring := some (panelRing as v dt r) }) heap
    (by simpa using panelRefs_nodup as)
  simpa [initializeStep] using this

/-- A solver whose objects are in the state constructors and earlier runs leave them in. -/
structure Good (p : UnsteadyProblem) (s : UnsteadySolver) : Prop where
  problem : s.problem = p
  wakes : ∀ w : WingRef, w.step = 0 → s.wakes w = []
  arrays : s.wakeArrays = [] ∨ (p.numSteps ≤ s.wakeArrays.length ∧
    ∀ j < p.numSteps, (s.wakeArrays.getD j []).length = j * totalSpanwise (p.airplanesAt j))

/-- The state before the first step. -/
noncomputable def begun (s : UnsteadySolver) : UnsteadySolver := s.preallocate.initializePanelVortices

theorem Good.inv {p : UnsteadyProblem} {s : UnsteadySolver} (h : Good p s) : Inv p 0 s.begun := by
  constructor
  · exact h.problem
  · change p.numSteps ≤ (s.wakeArrays ++ _).length
    rw [h.problem]
    simp
  · intro j hj
    change ((s.wakeArrays ++ _).getD j []).length = _
    rw [h.problem]
    rcases h.arrays with h0 | ⟨h1, h2⟩
    · rw [h0]
      simp [List.getD_eq_getElem?_getD, hj]
    · rw [List.getD_eq_getElem?_getD, List.getElem?_append_left (by omega), ← List.getD_eq_getElem?_getD]
      exact h2 j hj
  · intro j hj r hr
    refine ⟨0, ?_⟩
    change (initializeStep (s.problem.airplanesAt j) (s.problem.operatingPointAt j).freestreamVelocity
      s.problem.deltaTime (s.panels j) r).ring = _
    rw [h.problem, (initializeStep_spec _ _ _ _).1 r hr]
    rfl
  · intro _
    refine ⟨fun _ _ => 0, ?_, ?_, ?_, ?_⟩
    · intro w hw
      have hs := (mem_wingRefs.mp hw).1
      have hwk : s.begun.wakes w = [] := h.wakes w hs
      exact ⟨by rw [hwk]; rfl, by rw [hwk]; simp, by simp, by simp, by
        intro c hc; rw [mem_cellsOf] at hc; omega⟩
    · intro t _ t' _ _ i hi; omega
    · intro h; omega
    · intro w _ i hi; omega

/-- The time steps of a run as a sequence of states: `st k` before step `k`, `sm k` in the middle of it, `b` before the
first step (after the bound ring vortices have been made) and `s'` after the run. -/
structure Trace (p : UnsteadyProblem) (pres : Bool) (b s' : UnsteadySolver) (st sm : ℕ → UnsteadySolver) : Prop where
  start : st 0 = b
  reached : ∀ k ≤ p.numSteps, (List.range k).foldlM (runStep pres) b = .ok (st k)
  finish : ∃ sl : Bool, s' = if sl then (st p.numSteps).finalize.calculateStreamlines else (st p.numSteps).finalize
  inv : ∀ k ≤ p.numSteps, Inv p k (st k)
  solve : ∀ k < p.numSteps, (st k).solveStep k = .ok (sm k)
  solved : ∀ k < p.numSteps, ∃ x, SolvedFacts p k (st k) (sm k) x
  shed : ∀ k < p.numSteps, StepFacts p pres k (st k) (sm k) (st (k + 1))

theorem steps_trace {p : UnsteadyProblem} (hp : p.Regular) {b sn s' : UnsteadySolver} (hb : Inv p 0 b) {pres sl : Bool}
    (h1 : (List.range p.numSteps).foldlM (runStep pres) b = .ok sn)
    (h2 : (if sl then sn.finalize.calculateStreamlines else sn.finalize) = s') : ∃ st sm, Trace p pres b s' st sm := by
  obtain ⟨st, e0, en, hst⟩ := foldlM_range_trace (runStep pres) p.numSteps _ _ h1
  have hmid : ∀ k < p.numSteps, ∃ s1, (st k).solveStep k = .ok s1 ∧ st (k + 1) = s1.populateNextWake pres := by
    intro k hk
    have := hst k hk
    unfold runStep at this
    obtain ⟨s1, h1, h2⟩ := bind_ok.mp this
    simp only [pure, Except.pure, Except.ok.injEq] at h2
    exact ⟨s1, h1, h2.symm⟩
  have : Nonempty UnsteadySolver := ⟨b⟩
  choose! sm hsm using hmid
  have hinv : ∀ k ≤ p.numSteps, Inv p k (st k) := by
    intro k
    induction k with
    | zero => intro _; rw [e0]; exact hb
    | succ k ih =>
      intro hk
      have hi := ih (by omega)
      obtain ⟨addr, hw⟩ := hi.wake (by omega)
      obtain ⟨hs1, hs2⟩ := hsm k (by omega)
      obtain ⟨x, _, _, hf⟩ := hi.solve hp (by omega) hw hs1
      rw [hs2]
      exact (hi.shed hp (by omega) hw hf pres).2
  have hreach : ∀ k ≤ p.numSteps, (List.range k).foldlM (runStep pres) b = .ok (st k) := by
    intro k
    induction k with
    | zero => intro _; rw [e0]; rfl
    | succ k ih =>
      intro hk
      rw [List.range_succ, List.foldlM_append, ih (by omega)]
      simp only [bind, Except.bind, List.foldlM_cons, List.foldlM_nil, hst k (by omega), pure, Except.pure]
  refine ⟨st, sm, ⟨e0, hreach, ⟨sl, by rw [en]; exact h2.symm⟩, hinv, fun k hk => (hsm k hk).1, ?_, ?_⟩⟩
  · intro k hk
    obtain ⟨addr, hw⟩ := (hinv k (by omega)).wake hk
    obtain ⟨x, _, _, hf⟩ := (hinv k (by omega)).solve hp hk hw (hsm k hk).1
    exact ⟨x, hf⟩
  · intro k hk
    obtain ⟨addr, hw⟩ := (hinv k (by omega)).wake hk
    obtain ⟨x, _, _, hf⟩ := (hinv k (by omega)).solve hp hk hw (hsm k hk).1
    rw [(hsm k hk).2]
    exact ((hinv k (by omega)).shed hp hk hw hf pres).1

theorem run_trace {p : UnsteadyProblem} (hp : p.Regular) {s s' : UnsteadySolver} (hg : Good p s) {pres sl : Bool}
    (h : s.run pres sl = .ok s') : ∃ st sm, Trace p pres s.begun s' st sm := by
  unfold run at h
  obtain ⟨sn, h1, h2⟩ := bind_ok.mp h
  simp only [pure, Except.pure, Except.ok.injEq] at h2
  rw [hg.problem] at h1
  exact steps_trace hp hg.inv h1 h2

section persistence
variable {p : UnsteadyProblem} {pres : Bool} {s s' : UnsteadySolver} {st sm : ℕ → UnsteadySolver}

theorem finalize_rest (s : UnsteadySolver) :
    s.finalize = { s with final := s.finalize.final, finalMean := s.finalize.finalMean, finalRms := s.finalize.finalRms } := by
  unfold finalize
  simp only
  split_ifs <;> rfl

theorem Trace.final_eq (h : Trace p pres s s' st sm) :
    s'.panels = (st p.numSteps).panels ∧ s'.loads = (st p.numSteps).loads ∧
    s'.wakeArrays = (st p.numSteps).wakeArrays ∧ s'.vertices = (st p.numSteps).vertices ∧
    s'.wakes = (st p.numSteps).wakes ∧ s'.objects = (st p.numSteps).objects ∧ s'.problem = p := by
  have hprob := (h.inv p.numSteps le_rfl).problem
  obtain ⟨sl, e⟩ := h.finish
  have hr := (st p.numSteps).finalize_rest
  cases sl
  · simp only [Bool.false_eq_true, if_false] at e
    rw [e, hr]
    exact ⟨rfl, rfl, rfl, rfl, rfl, rfl, hprob⟩
  · simp only [if_true] at e
    rw [e]
    unfold calculateStreamlines
    rw [hr]
    exact ⟨rfl, rfl, rfl, rfl, rfl, rfl, hprob⟩

/-- A component that steps `a, …, n - 1` leave alone. -/
theorem persist {β : Type} (X : UnsteadySolver → β) (a b : ℕ) (hab : a ≤ b)
    (hX : ∀ k, a ≤ k → k < b → X (st (k + 1)) = X (st k)) : X (st b) = X (st a) := by
  induction b, hab using Nat.le_induction with
  | base => rfl
  | succ b hab ih =>
    rw [hX b hab (by omega)]
    exact ih fun k h1 h2 => hX k h1 (by omega)

theorem StepFacts.same {s0 s1 s2 : UnsteadySolver} {k : ℕ} (h : StepFacts p pres k s0 s1 s2) :
    s2.panels = s1.panels ∧ s2.loads = s1.loads ∧ s2.wakeArrays = s1.wakeArrays ∧ s2.problem = s1.problem ∧
    s2.step = s1.step ∧ s2.slots = s1.slots ∧ s2.strengths = s1.strengths ∧ s2.lasts = s1.lasts ∧
    s2.wakeCounts = s1.wakeCounts ∧
    s2.final = s1.final ∧ s2.finalMean = s1.finalMean ∧ s2.finalRms = s1.finalRms := by
  rw [h.rest]
  exact ⟨rfl, rfl, rfl, rfl, rfl, rfl, rfl, rfl, rfl, rfl, rfl, rfl⟩

theorem Trace.step_panels (h : Trace p pres s s' st sm) {k : ℕ} (hk : k < p.numSteps) {j : ℕ} (hj : j ≠ k) :
    (st (k + 1)).panels j = (st k).panels j := by
  obtain ⟨x, hx⟩ := h.solved k hk
  rw [(h.shed k hk).same.1, hx.panels j hj]

/-- The finished solver shows the panels of step `k` as step `k` left them. -/
theorem Trace.panels (h : Trace p pres s s' st sm) {k : ℕ} (hk : k < p.numSteps) :
    s'.panels k = (sm k).panels k := by
  rw [h.final_eq.1, persist (st := st) (fun s => s.panels k) (k + 1) p.numSteps (by omega)]
  · exact congrFun (h.shed k hk).same.1 k
  · intro j h1 h2
    exact h.step_panels h2 (by omega)

/-- Before step `k` its panels are as initialization left them, and those of earlier steps are final. -/
theorem Trace.panels_before (h : Trace p pres s s' st sm) {j k : ℕ} (hj : j < k) (hk : k ≤ p.numSteps) :
    (st k).panels j = s'.panels j := by
  rw [h.final_eq.1]
  exact (persist (st := st) (fun s => s.panels j) k p.numSteps hk
    fun i h1 h2 => h.step_panels h2 (by omega)).symm

theorem Trace.loads (h : Trace p pres s s' st sm) {k : ℕ} (hk : k < p.numSteps) :
    s'.loads k = (sm k).loads k := by
  rw [h.final_eq.2.1, persist (st := st) (fun s => s.loads k) (k + 1) p.numSteps (by omega)]
  · exact congrFun (h.shed k hk).same.2.1 k
  · intro j h1 h2
    obtain ⟨x, hx⟩ := h.solved j h2
    have := congrFun (h.shed j h2).same.2.1 k
    rw [this, hx.loads k (by omega)]

theorem Trace.record (h : Trace p pres s s' st sm) {k : ℕ} (hk : k < p.numSteps) :
    s'.wakeArrays.getD k [] = (sm k).wakeArrays.getD k [] := by
  rw [h.final_eq.2.2.1, persist (st := st) (fun s => s.wakeArrays.getD k []) (k + 1) p.numSteps (by omega)]
  · simp only [(h.shed k hk).same.2.2.1]
  · intro j h1 h2
    obtain ⟨x, hx⟩ := h.solved j h2
    simp only [(h.shed j h2).same.2.2.1]
    rw [hx.arrays k (by omega)]

/-- The wake vertices of step `k` do not change from step `k` on. -/
theorem Trace.vertices (h : Trace p pres s s' st sm) {k : ℕ} (hk : k ≤ p.numSteps) {w : WingRef} (hw : w.step ≤ k) :
    s'.vertices w = (st k).vertices w := by
  rw [h.final_eq.2.2.2.1, persist (st := st) (fun s => s.vertices w) k p.numSteps hk]
  intro j h1 h2
  obtain ⟨x, hx⟩ := h.solved j h2
  rw [(h.shed j h2).vertices w (by omega), hx.vertices]

theorem Trace.arraysLen (h : Trace p pres s s' st sm) : p.numSteps ≤ s'.wakeArrays.length := by
  rw [h.final_eq.2.2.1]; exact (h.inv _ le_rfl).arraysLen

/-- What the arrays of step `k` record, in terms of the finished solver. -/
theorem Trace.record_eq (h : Trace p pres s s' st sm) {k : ℕ} (hk : k < p.numSteps) :
    s'.wakeArrays.getD k [] = (wingRefs k (p.airplanesAt k)).flatMap fun w =>
      (cellsOf k (p.spanOf w)).map fun c =>
        wakeSlot (wakeRing (s'.vertices w) c.1 c.2 (edgeStrength p s' (k - 1 - c.1) w c.2) (c.1 * p.deltaTime)) := by
  obtain ⟨x, hx⟩ := h.solved k hk
  rw [h.record hk, hx.record]
  apply List.flatMap_congr
  intro w hw
  have hws := (mem_wingRefs.mp hw).1
  apply List.map_congr_left
  rintro ⟨i, j⟩ hc
  obtain ⟨h1, h2⟩ := mem_cellsOf.mp hc
  simp only at h1 ⊢
  rw [h.vertices (k := k) (by omega) (by omega)]
  congr 2
  unfold edgeStrength ringAt
  rw [h.panels_before (by omega) (by omega)]

/-- The vertices of step `k + 1`. -/
theorem Trace.next (h : Trace p pres s s' st sm) {k : ℕ} (hk : k + 1 < p.numSteps) {w : WingRef}
    (hw : w ∈ wingRefs k (p.airplanesAt k)) {wing : Wing} (hwing : p.wing? w = some wing) :
    s'.vertices { w with step := k + 1 } = (sm k).nextVertices pres w wing := by
  rw [h.vertices (k := k + 1) (by omega) (le_refl _)]
  exact (h.shed k (by omega)).next hk w hw wing hwing

/-- The rings of the finished solver. -/
theorem Trace.rings (h : Trace p pres s s' st sm) {j : ℕ} (hj : j < p.numSteps) {r : PanelRef}
    (hr : r ∈ panelRefs (p.airplanesAt j)) :
    ∃ g, (s'.panels j r).ring = some ((boundRing p j r).updateStrength g) := by
  rw [h.final_eq.1]
  exact (h.inv _ le_rfl).rings j hj r hr

/-- A finished run leaves objects a further run can start from. -/
theorem Trace.good (h : Trace p pres s.begun s' st sm) (hg : Good p s) : Good p s' := by
  refine ⟨h.final_eq.2.2.2.2.2.2, ?_, Or.inr ⟨h.arraysLen, ?_⟩⟩
  · intro w hw
    rw [h.final_eq.2.2.2.2.1, persist (st := st) (fun s => s.wakes w) 0 p.numSteps (by omega)]
    · rw [h.start]; exact hg.wakes w hw
    · intro j h1 h2
      obtain ⟨x, hx⟩ := h.solved j h2
      rw [(h.shed j h2).wakes w (by omega), hx.wakes]
  · intro j hj
    rw [h.final_eq.2.2.1]
    exact (h.inv _ le_rfl).arrays j hj

end persistence

end UnsteadySolver
end Ptera
