import Verif.Lemmas.SteadyRuns
import Verif.Lemmas.Loads

/-!
# What a run of the horseshoe solver does not depend on
-/

namespace Ptera

/-- The loads of the airplanes do not depend on what was on the panels before. -/
theorem processForces_fresh (op : OperatingPoint) (as : List Airplane) (F M : List V3) (h1 h2 : PanelHeap) :
    (processForces op as (panelRefs as) F M h1).2 = (processForces op as (panelRefs as) F M h2).2 := by
  unfold processForces
  apply List.map_congr_left
  rintro ⟨a, i⟩ hai
  have key : ∀ r ∈ airplaneRefs a i, (storePanelLoads op as (panelRefs as) F M h1 r).loads
      = (storePanelLoads op as (panelRefs as) F M h2 r).loads := by
    intro r hr
    have hm : r ∈ panelRefs as := by
      unfold panelRefs
      exact List.mem_flatMap.mpr ⟨(a, i), hai, hr⟩
    obtain ⟨g, hg⟩ := List.getElem?_of_mem hm
    rw [(storePanelLoads_spec op as (panelRefs as) F M h1 (panelRefs_nodup as)).1 g r hg,
      (storePanelLoads_spec op as (panelRefs as) F M h2 (panelRefs_nodup as)).1 g r hg]
  have fold : ∀ (l : List PanelRef) (f g : PanelRef → V3) (t : V3), (∀ r ∈ l, f r = g r) →
      l.foldl (fun total r => total + f r) t = l.foldl (fun total r => total + g r) t := by
    intro l f g
    induction l with
    | nil => intro t _; rfl
    | cons r l ih =>
      intro t h
      simp only [List.foldl_cons]
      rw [h r (by simp)]
      exact ih _ fun r' hr' => h r' (List.mem_cons_of_mem _ hr')
  unfold airplaneLoads
  simp only
  rw [fold (airplaneRefs a i) (fun r => (storePanelLoads op as (panelRefs as) F M h1 r).force)
      (fun r => (storePanelLoads op as (panelRefs as) F M h2 r).force) 0
      (fun r hr => by simp only [PanelState.force, key r hr]),
    fold (airplaneRefs a i) (fun r => (storePanelLoads op as (panelRefs as) F M h1 r).moment)
      (fun r => (storePanelLoads op as (panelRefs as) F M h2 r).moment) 0
      (fun r hr => by simp only [PanelState.moment, key r hr])]

namespace HorseshoeSolver

/-- Two new solvers of the same problem compute the same, whatever is on the panels and airplanes. -/
theorem run_fresh (problem : SteadyProblem) (hc : Counted problem.airplanes) (h1 h2 : PanelHeap)
    (l1 l2 : List AirplaneLoads) {s1 : HorseshoeSolver} (h : (create problem h1 l1).run = .ok s1) :
    ∃ s2, (create problem h2 l2).run = .ok s2 ∧ s2 = { s1 with heap := s2.heap } ∧
      ∀ r ∈ panelRefs problem.airplanes, s2.heap r
        = { h2 r with horseshoe := (s1.heap r).horseshoe, loads := (s1.heap r).loads } := by
  set S1 := create problem h1 l1 with hS1
  set S2 := create problem h2 l2 with hS2
  have e1 := run_eq S1 hc (by simp [S1, create])
  have e2 := run_eq S2 hc (by simp [S2, create])
  have ei : S2.finalInfluences = S1.finalInfluences := rfl
  have ef : S2.finalFreestream = S1.finalFreestream := rfl
  rw [ei, ef] at e2
  rw [e1] at h
  rw [e2]
  cases hx : linalgSolve S1.finalInfluences (S1.finalFreestream.map fun x => -x) with
  | error e => rw [hx] at h; cases h
  | ok x =>
    rw [hx] at h
    simp only [Except.map, Except.ok.injEq] at h ⊢
    refine ⟨_, rfl, ?_, ?_⟩
    · subst h
      have hl : (S2.solved x).calculateForces.loads = (S1.solved x).calculateForces.loads := by
        have p1 : (S1.solved x).slots.map (·.panel) = panelRefs problem.airplanes := S1.finalSlots_panels
        have p2 : (S2.solved x).slots.map (·.panel) = panelRefs problem.airplanes := S2.finalSlots_panels
        unfold calculateForces
        simp only [p1, p2]
        exact processForces_fresh _ _ _ _ _ _
      have e3 : (S2.solved x).calculateForces.calculateStreamlines
          = { (S1.solved x).calculateForces.calculateStreamlines with
              heap := (S2.solved x).calculateForces.heap, loads := (S2.solved x).calculateForces.loads } := rfl
      conv_lhs => rw [e3, hl]
      rfl
    · intro r hr
      obtain ⟨g, hg⟩ := List.getElem?_of_mem hr
      subst h
      have a1 : (S1.solved x).calculateForces.calculateStreamlines.heap r = _ := (S1.final_heap x).1 g r hg
      have a2 : (S2.solved x).calculateForces.calculateStreamlines.heap r = _ := (S2.final_heap x).1 g r hg
      rw [a1, a2]
      rfl

/-- A run of a new solver fails only in the linear solve. -/
theorem run_error (problem : SteadyProblem) (hc : Counted problem.airplanes) (heap : PanelHeap)
    (loads : List AirplaneLoads) {e : Err} (h : (create problem heap loads).run = .error e) : e = .linAlgError := by
  rw [run_eq _ hc (by simp [create])] at h
  cases hx : linalgSolve (create problem heap loads).finalInfluences
      ((create problem heap loads).finalFreestream.map fun x => -x) with
  | error e' =>
    rw [hx] at h
    simp only [Except.map, Except.error.injEq] at h
    subst h
    exact linalgSolve_error hx
  | ok x => rw [hx] at h; simp [Except.map] at h

/-- The loads have one entry per airplane. -/
theorem run_loads_length (problem : SteadyProblem) (hc : Counted problem.airplanes) (heap : PanelHeap)
    (loads : List AirplaneLoads) {s : HorseshoeSolver} (h : (create problem heap loads).run = .ok s) :
    s.loads.length = problem.airplanes.length := by
  obtain ⟨x, _, _, rfl⟩ := run_result (s := create problem heap loads) hc (by simp [create]) h
  show (((create problem heap loads).solved x).calculateForces).loads.length = _
  simp [calculateForces, processForces, solved, create]

end HorseshoeSolver

end Ptera
