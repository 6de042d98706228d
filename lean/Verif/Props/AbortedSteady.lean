import Verif.Lemmas.AbortedSteady
import Verif.Props.RingLattice
import Verif.Props.Overlap

/-!
# C88: steady runs that raise or are interrupted

Either steady solver, stopped after any of the methods its `run` calls, can be run again — the ring solver as long as
it has not solved its linear system, since after that even complete runs do not repeat (C34_ring_fails).
-/

namespace Ptera

variable {problem : SteadyProblem}

/-- C88 (horseshoe solver): a run is its methods, one after the other. -/
theorem C88_horseshoe_operations (s : HorseshoeSolver) : s.run = performSteady HorseshoeSolver.runOperations s :=
  s.run_operations

/-- C88 (ring solver): a run is its methods, one after the other. -/
theorem C88_ring_operations (s : RingSolver) : s.run = performSteady RingSolver.runOperations s := s.run_operations

/-- C88 (horseshoe solver): after runs stopped anywhere, running the same solver succeeds exactly when the run of a new
solver on an untouched problem does, and shows the same results; the only error there is is a singular system. -/
theorem C88_horseshoe_again (hmade : ∀ a ∈ problem.airplanes, a.Made) {a : HorseshoeSolver}
    (ha : HorseshoeSolver.Reached problem a) :
    (∀ f, (HorseshoeSolver.create problem).run = .ok f →
      ∃ a', a.run = .ok a' ∧ f.results.Same problem.airplanes a'.results) ∧
    (∀ e, (HorseshoeSolver.create problem).run = .error e → e = .linAlgError ∧ a.run = .error e) := by
  have hc := counted_of_made hmade
  have hrun := ha.of.run_eq hc
  constructor
  · intro f hf
    obtain ⟨s, hs, he, hheap⟩ := HorseshoeSolver.run_fresh problem hc .fresh a.heap [] a.loads hf
    rw [hs] at hrun
    refine ⟨_, hrun, ?_, ?_, ?_⟩
    · show (fun q => (HorseshoeSolver.solutionVelocity _ [q]).headD 0) = fun q => (f.solutionVelocity [q]).headD 0
      rw [he]
      rfl
    · show s.loads = f.loads
      rw [he]
    · intro r p hp
      have := hheap r ((mem_panelRefs _ r).mpr ⟨p, hp⟩)
      constructor
      · show (s.heap r).horseshoe.map (·.strength) = (f.heap r).horseshoe.map (·.strength)
        rw [this]
      · show (s.heap r).loads = (f.heap r).loads
        rw [this]
  · intro e he
    have hl := HorseshoeSolver.run_error problem hc _ _ he
    refine ⟨hl, ?_⟩
    cases hs : (HorseshoeSolver.create problem a.heap a.loads).run with
    | ok s =>
      obtain ⟨f, hf, _⟩ := HorseshoeSolver.run_fresh problem hc a.heap .fresh a.loads [] hs
      rw [hf] at he
      cases he
    | error e' =>
      rw [hs] at hrun
      rw [hrun, hl, HorseshoeSolver.run_error problem hc _ _ hs]
      rfl

/-- C88 (horseshoe solver): a run that raises does so in the solution of the linear system, the four methods before it
being done, and leaves a solver to which `C88_horseshoe_again` applies. -/
theorem C88_horseshoe_raised (hmade : ∀ a ∈ problem.airplanes, a.Made) {s : HorseshoeSolver}
    (hs : HorseshoeSolver.Reached problem s) {e : Err} (h : s.run = .error e) :
    e = .linAlgError ∧ ∃ a, performSteady (HorseshoeSolver.runOperations.take 4) s = .ok a ∧
      a.calculateVortexStrengths = .error e ∧ HorseshoeSolver.Reached problem a := by
  have hc := counted_of_made hmade
  have ho := hs.of
  have hc' : Counted s.airplanes := by rw [ho.airplanes]; exact hc
  refine ⟨?_, ?_⟩
  · cases hf : (HorseshoeSolver.create problem).run with
    | ok f =>
      obtain ⟨a', ha', _⟩ := (C88_horseshoe_again hmade hs).1 f hf
      rw [ha'] at h
      cases h
    | error e' =>
      obtain ⟨h1, h2⟩ := (C88_horseshoe_again hmade hs).2 e' hf
      rw [h2] at h
      cases h
      exact h1
  · have hcol := HorseshoeSolver.collapse_eq s hc' (by rw [ho.slots, ho.airplanes])
    have hp : ∃ a, performSteady (HorseshoeSolver.runOperations.take 4) s = .ok a := by
      simp only [HorseshoeSolver.runOperations, List.take_succ_cons, List.take_zero, performSteady_cons, Except.bind, hcol]
      exact ⟨_, rfl⟩
    obtain ⟨a, ha⟩ := hp
    refine ⟨a, ha, ?_, .stopped hs (List.take_prefix 4 _) ha⟩
    rw [HorseshoeSolver.run_operations] at h
    simp only [HorseshoeSolver.runOperations, List.take_succ_cons, List.take_zero, performSteady_cons, Except.bind, hcol]
      at h ha
    cases ha
    generalize hv : HorseshoeSolver.calculateVortexStrengths _ = v at h ⊢
    cases v with
    | ok t => cases h
    | error e' => exact h

/-- C88 (ring solver): after runs stopped anywhere before the solution of the linear system, running the same solver
succeeds exactly when the run of a new solver on an untouched problem does, and shows the same results; the only error
there is is a singular system. -/
theorem C88_ring_again (hmade : ∀ a ∈ problem.airplanes, a.Made) {a : RingSolver}
    (ha : RingSolver.NotSolved problem a) :
    (∀ f, (RingSolver.create problem).run = .ok f →
      ∃ a', a.run = .ok a' ∧ f.results.Same problem.airplanes a'.results) ∧
    (∀ e, (RingSolver.create problem).run = .error e → e = .linAlgError ∧ a.run = .error e) := by
  have hc := counted_of_made hmade
  have ho := ha.of hc
  have hl := ho.alike hc .fresh []
  rw [ho.run_emptied hc]
  constructor
  · intro f hf
    obtain ⟨a', ha', _, _, _, h1, h2, h3⟩ := hl.run hmade hf
    refine ⟨a', ha', ?_, h1, ?_⟩
    · funext q
      show (a'.solutionVelocity [q]).headD 0 = (f.solutionVelocity [q]).headD 0
      rw [h2]
    · intro r p hp
      obtain ⟨h4, h5, _⟩ := h3 r p hp
      exact ⟨by show (a'.heap r).ring.map (·.strength) = (f.heap r).ring.map (·.strength); rw [h4], h5⟩
  · intro e he
    exact hl.run_error he

/-- C88 (ring solver): a run that raises, of a solver that has not solved yet, does so in the solution of the linear
system and leaves a solver that has not solved yet. -/
theorem C88_ring_raised (hmade : ∀ a ∈ problem.airplanes, a.Made) {s : RingSolver}
    (hs : RingSolver.NotSolved problem s) {e : Err} (h : s.run = .error e) :
    e = .linAlgError ∧ ∃ a, performSteady RingSolver.preparations s = .ok a ∧
      a.calculateVortexStrengths = .error e ∧ RingSolver.NotSolved problem a := by
  have hc := counted_of_made hmade
  have ho := hs.of hc
  have hc' : Counted s.airplanes := by rw [ho.airplanes]; exact hc
  refine ⟨?_, ?_⟩
  · cases hf : (RingSolver.create problem).run with
    | ok f =>
      obtain ⟨a', ha', _⟩ := (C88_ring_again hmade hs).1 f hf
      rw [ha'] at h
      cases h
    | error e' =>
      obtain ⟨h1, h2⟩ := (C88_ring_again hmade hs).2 e' hf
      rw [h2] at h
      cases h
      exact h1
  · have hcol := RingSolver.collapse_eq s hc' (by rw [ho.slots, ho.airplanes]) (by rw [ho.trailing, ho.airplanes])
    have hp : ∃ a, performSteady RingSolver.preparations s = .ok a := by
      simp only [RingSolver.preparations, performSteady_cons, Except.bind, hcol]
      exact ⟨_, rfl⟩
    obtain ⟨a, ha⟩ := hp
    refine ⟨a, ha, ?_, .stopped hs (List.prefix_refl _) ha⟩
    rw [RingSolver.run_operations] at h
    simp only [RingSolver.runOperations, RingSolver.preparations, List.cons_append, List.nil_append, performSteady_cons,
      Except.bind, hcol] at h ha
    cases ha
    generalize hv : RingSolver.calculateVortexStrengths _ = v at h ⊢
    cases v with
    | ok t => cases h
    | error e' => exact h

/-! ## The hypotheses are met -/

/-- The run of the horseshoe solver on a plate, stopped after any number of its methods and done again. -/
example (k : ℕ) : ∃ (problem : SteadyProblem) (f a a' : HorseshoeSolver), (∀ a ∈ problem.airplanes, a.Made) ∧
    (HorseshoeSolver.create problem).run = .ok f ∧ (∃ Γ, f.strengths = [Γ] ∧ Γ < 0) ∧
    performSteady (HorseshoeSolver.runOperations.take k) (HorseshoeSolver.create problem) = .ok a ∧
    HorseshoeSolver.Reached problem a ∧ a.run = .ok a' ∧ f.results.Same problem.airplanes a'.results := by
  obtain ⟨a, hmade, hrefs, hp, hspan, -⟩ := plate_airplane
  obtain ⟨s, hs, hstr⟩ := plate_horseshoe_run (steepFlow 10) hmade hrefs hp hspan (steepFlow_ahead 10) PanelHeap.fresh []
  have hm : ∀ b ∈ [a], b.Made := by simpa using hmade
  have hs' := hs
  rw [C88_horseshoe_operations, ← List.take_append_drop k HorseshoeSolver.runOperations] at hs'
  obtain ⟨t, ht, -⟩ := performSteady_append _ _ _ _ hs'
  have hr : HorseshoeSolver.Reached ⟨[a], steepFlow 10⟩ t := .stopped (.new _ _) (List.take_prefix _ _) ht
  obtain ⟨t', ht', hsame⟩ := (C88_horseshoe_again hm hr).1 s hs
  refine ⟨⟨[a], steepFlow 10⟩, s, t, t', hm, hs, ⟨_, hstr, ?_⟩, ht, hr, ht', hsame⟩
  rw [steepFlow_velocity]
  exact div_neg_of_neg_of_pos (by norm_num) (plateHorseshoe_pos _ (steepFlow_ahead 10))

/-- The run of the ring solver on a plate, stopped after any number of methods before the solution and done again. -/
example (k : ℕ) : ∃ (problem : SteadyProblem) (f a a' : RingSolver), (∀ a ∈ problem.airplanes, a.Made) ∧
    (RingSolver.create problem).run = .ok f ∧ (∃ Γ, f.strengths = [Γ] ∧ Γ < 0) ∧
    performSteady (RingSolver.preparations.take k) (RingSolver.create problem) = .ok a ∧
    RingSolver.NotSolved problem a ∧ a.run = .ok a' ∧ f.results.Same problem.airplanes a'.results := by
  obtain ⟨a, hmade, hrefs, hp, hspan, -⟩ := plate_airplane
  obtain ⟨s, hs, hstr⟩ := plate_ring_run (steepFlow 10) hmade hrefs hp hspan (steepFlow_ahead 10) PanelHeap.fresh []
  have hm : ∀ b ∈ [a], b.Made := by simpa using hmade
  have hs' := hs
  rw [C88_ring_operations, RingSolver.runOperations, ← List.take_append_drop k RingSolver.preparations,
    List.append_assoc] at hs'
  obtain ⟨t, ht, -⟩ := performSteady_append _ _ _ _ hs'
  have hr : RingSolver.NotSolved ⟨[a], steepFlow 10⟩ t := .stopped (.new _ _) (List.take_prefix _ _) ht
  obtain ⟨t', ht', hsame⟩ := (C88_ring_again hm hr).1 s hs
  refine ⟨⟨[a], steepFlow 10⟩, s, t, t', hm, hs, ⟨_, hstr, ?_⟩, ht, hr, ht', hsame⟩
  rw [steepFlow_velocity]
  exact div_neg_of_neg_of_pos (by norm_num) (plate_total_pos _ (steepFlow_ahead 10))

/-- Runs that raise: an airplane given twice. -/
example (op : OperatingPoint) : ∃ a : Airplane, a.Made ∧
    (HorseshoeSolver.create ⟨[a, a], op⟩).run = .error .linAlgError ∧
    (RingSolver.create ⟨[a, a], op⟩).run = .error .linAlgError := by
  obtain ⟨a, hmade, -, hp, -⟩ := plate_airplane
  obtain ⟨w, hw, i, j, p, hc⟩ : ∃ w, a.wings[0]? = some w ∧ ∃ i j p, cell w.panels i j = some p := by
    unfold panelAt wingAt at hp
    simp only [List.getElem?_cons_zero, Option.bind_some] at hp
    cases hw : a.wings[0]? with
    | none => rw [hw] at hp; cases hp
    | some w => rw [hw] at hp; exact ⟨w, rfl, _, _, _, hp⟩
  exact ⟨a, hmade, C89_steady [a, a] (by simpa using hmade) (Or.inl
    (C89_airplane_twice [a, a] 0 1 a (by simp) rfl rfl 0 w hw ⟨i, j, p, hc⟩)) op .fresh []⟩

end Ptera
