import Verif.Props.SteadyRuns
import Verif.Lemmas.SimilarRuns
import Verif.Lemmas.PlateRun

/-!
# C18 for the solvers
-/

namespace Ptera

/-- C18: a steady solver makes its arrays with one slot for every panel of every wing of every airplane, and they have
this length after a run too; the matrix is square. -/
theorem C18_solver_counts (problem : SteadyProblem) (hmade : ∀ a ∈ problem.airplanes, a.Made) (heap : PanelHeap)
    (loads : List AirplaneLoads) (n : ℕ)
    (hn : n = (problem.airplanes.flatMap fun a => a.wings.flatMap fun w => w.panels.flatten).length) :
    (problem.airplanes.map (·.numPanels)).sum = n ∧
    (HorseshoeSolver.create problem heap loads).slots.length = n ∧
    (RingSolver.create problem heap loads).slots.length = n ∧
    (∀ s, (HorseshoeSolver.create problem heap loads).run = .ok s →
      s.slots.length = n ∧ s.strengths.length = n ∧ s.influences.length = n ∧ (∀ row ∈ s.influences, row.length = n) ∧
      s.freestream.length = n) ∧
    ∀ s, (RingSolver.create problem heap loads).run = .ok s →
      s.slots.length = n ∧ s.strengths.length = n ∧ s.trailing.length = n ∧ s.influences.length = n ∧
      (∀ row ∈ s.influences, row.length = n) ∧ s.freestream.length = n := by
  have hc := counted_of_made hmade
  have htot : totalPanels problem.airplanes = n := by
    rw [hn, List.length_flatMap]
    unfold totalPanels
    congr 1
    exact List.map_congr_left hc
  have hrefs : (panelRefs problem.airplanes).length = n := by rw [panelRefs_length _ hc, htot]
  refine ⟨htot, by simp [HorseshoeSolver.create, htot], by simp [RingSolver.create, htot], ?_, ?_⟩
  · intro s h
    obtain ⟨e1, e2⟩ := HorseshoeSolver.system_eq problem hmade heap loads
    set S := HorseshoeSolver.create problem heap loads with hS
    obtain ⟨x, hx, hlen, rfl⟩ := HorseshoeSolver.run_result (s := S) hc (by simp [S, HorseshoeSolver.create]) h
    have h1 : S.finalSlots.length = n := by rw [S.finalSlots_length]; exact hrefs
    refine ⟨h1, by rw [← h1]; exact hlen, ?_, ?_, ?_⟩
    · show S.finalInfluences.length = n
      rw [e1]; simpa using hrefs
    · show ∀ row ∈ S.finalInfluences, row.length = n
      rw [e1]
      intro row hrow
      obtain ⟨i, -, rfl⟩ := List.mem_map.mp hrow
      simpa using hrefs
    · show S.finalFreestream.length = n
      have := congrArg List.length e2
      rw [List.length_map, List.length_map, hrefs] at this
      exact this
  · intro s h
    obtain ⟨e1, e2⟩ := RingSolver.system_eq problem hmade heap loads
    set S := RingSolver.create problem heap loads with hS
    obtain ⟨x, hx, hlen, rfl⟩ := RingSolver.run_result (s := S) hc (by simp [S, RingSolver.create])
      (by simp [S, RingSolver.create]) (by simp [S, RingSolver.create]) h
    have h1 : S.finalSlots.length = n := by rw [S.finalSlots_length]; exact hrefs
    refine ⟨h1, by rw [← h1]; exact hlen, ?_, ?_, ?_, ?_⟩
    · have := (C38_ring problem hmade heap loads _ h).2.2.1
      rw [this]; exact h1
    · show S.finalInfluences.length = n
      rw [e1]; simpa using hrefs
    · show ∀ row ∈ S.finalInfluences, row.length = n
      rw [e1]
      intro row hrow
      obtain ⟨i, -, rfl⟩ := List.mem_map.mp hrow
      simpa using hrefs
    · show S.finalFreestream.length = n
      have := congrArg List.length e2
      rw [List.length_map, List.length_map, hrefs] at this
      exact this

/-- A concrete case: the square plate has one panel. -/
example (op : OperatingPoint) (hd : |op.freestreamDirection.y| ≤ op.freestreamDirection.x) :
    ∃ (a : Airplane) (s : RingSolver), (RingSolver.create ⟨[a], op⟩).run = .ok s ∧ s.slots.length = 1 ∧
      s.influences.length = 1 := by
  obtain ⟨a, hmade, hrefs, hp, hspan, _⟩ := plate_airplane
  obtain ⟨s, hs, _⟩ := plate_ring_run (op := op) hmade hrefs hp hspan hd .fresh []
  have hm : ∀ b ∈ [a], b.Made := by simpa using hmade
  have hlen := panelRefs_length [a] (counted_of_made hm)
  rw [hrefs] at hlen
  have h0 := (C18_solver_counts ⟨[a], op⟩ hm .fresh [] _ rfl).1
  have h1 := (C18_solver_counts ⟨[a], op⟩ hm .fresh [] _ rfl).2.2.2.2 s hs
  rw [← h0] at h1
  have h2 : ([a].map (·.numPanels)).sum = 1 := hlen.symm
  rw [h2] at h1
  exact ⟨a, s, hs, h1.1, h1.2.2.2.1⟩

end Ptera
