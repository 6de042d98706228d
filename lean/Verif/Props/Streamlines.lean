import Verif.Spec.Streamlines
import Verif.Props.Spacing
import Verif.Props.UnsteadyExample
import Verif.Lemmas.MadePanels

/-!
# C54: where the streamlines of a solver start and what they follow

`C54_steady`: both steady solvers, `C54_unsteady`: the unsteady solver. The streamlines are those of the velocity the
solved solver itself reports.
-/

namespace Ptera

theorem streamlines_are (vel : V3 → V3) (seeds : List V3) (n : ℕ) (dt : ℝ) :
    IsStreamlines vel seeds n dt (calculateStreamlines vel seeds n dt) := by
  obtain ⟨h1, h2, h3⟩ := C54_streamlines vel seeds n dt
  refine ⟨h1, h2, fun k row hk hrow => ?_⟩
  obtain ⟨next, e1, e2, e3⟩ := h3 k row hk hrow
  rw [e1]
  congr 1
  apply List.ext_getElem?
  intro i
  cases hi : row[i]? with
  | some p => rw [e3 i p hi]; simp [hi]
  | none =>
    rw [List.getElem?_eq_none_iff] at hi
    rw [List.getElem?_eq_none (by omega), List.getElem?_eq_none (by simpa using hi)]

theorem zipIdx_flatMap_same {α β : Type} (l : List α) (f : α × ℕ → List β) (g : α → List β)
    (h : ∀ (i : ℕ) (a : α), l[i]? = some a → f (a, i) = g a) : l.zipIdx.flatMap f = l.flatMap g := by
  rw [List.flatMap_def, List.flatMap_def]
  congr 1
  apply List.ext_getElem
  · simp
  · intro i h1 h2
    have hi : i < l.length := by simpa using h1
    simp [h i l[i] (by simp [hi])]

theorem zipIdx_flatMap_last {α β : Type} (l : List (List α)) (f : List α × ℕ → List β) (g : α → β)
    (h : ∀ (i : ℕ) (a : List α), l[i]? = some a → f (a, i) = if i + 1 = l.length then a.map g else []) :
    l.zipIdx.flatMap f = (l.getLast?.getD []).map g := by
  rcases List.eq_nil_or_concat l with rfl | ⟨L, b, rfl⟩
  · simp
  · simp only [List.concat_eq_append] at h ⊢
    rw [List.zipIdx_append, List.flatMap_append]
    have h1 : L.zipIdx.flatMap f = [] := by
      rw [List.flatMap_eq_nil_iff]
      rintro ⟨a, i⟩ ha
      have ha := List.mk_mem_zipIdx_iff_getElem?.mp ha
      have hi := (List.getElem?_eq_some_iff.mp ha).1
      rw [h i a (by rw [List.getElem?_append_left hi]; exact ha), if_neg (by simp; omega)]
    rw [h1]
    have := h L.length b (by simp)
    simp [this]

theorem seedsOf_flatMap {α : Type} (as : List Airplane) (l : List α) (f : α → List PanelRef) :
    seedsOf as (l.flatMap f) = l.flatMap fun x => seedsOf as (f x) := by
  induction l with
  | nil => simp [seedsOf]
  | cons a l ih =>
    rw [List.flatMap_cons, List.flatMap_cons, ← ih]
    simp [seedsOf]

/-- The seed points of the panels of a problem. -/
theorem seedsOf_panels {as : List Airplane} (hm : ∀ a ∈ as, a.Made) :
    seedsOf as (panelRefs as) = trailingEdgePoints as := by
  unfold panelRefs trailingEdgePoints
  rw [seedsOf_flatMap]
  apply zipIdx_flatMap_same
  intro x a ha
  simp only [airplaneRefs]
  rw [seedsOf_flatMap]
  apply zipIdx_flatMap_same
  intro y w hw
  simp only
  rw [seedsOf_flatMap]
  apply zipIdx_flatMap_last
  intro i row hrow
  have hmade : w.Made := (hm a (List.mem_of_getElem? ha)).wings w (List.mem_of_getElem? hw)
  obtain ⟨S, le, n, sym, u, m, sp, hc⟩ := hmade
  obtain ⟨c1, _⟩ := C18_wing_counts S le n sym u m sp w hc
  have hcell : ∀ (j : ℕ) (p : Panel), row[j]? = some p → cell w.panels i j = some p := by
    intro j p hj; simp [cell, hrow, hj]
  have hgeo : ∀ (j : ℕ) (p : Panel), row[j]? = some p → geometryOf as ⟨x, y, i, j⟩ = p := by
    intro j p hj
    apply geometryOf_eq
    rw [cell_panelAt (r := ⟨x, y, i, j⟩) ha hw]
    exact hcell j p hj
  have hrefs : ((List.range row.length).map fun j => (⟨x, y, i, j⟩ : PanelRef)).map (geometryOf as) = row := by
    rw [List.map_map]
    apply List.ext_getElem
    · simp
    · intro j h1 h2
      simp only [List.getElem_map, List.getElem_range, Function.comp]
      exact hgeo j _ (by simp [h2])
  unfold seedsOf
  rw [hrefs]
  have hflag : ∀ p ∈ row, (p.isTrailingEdge = true ↔ i + 1 = w.panels.length) := by
    intro p hp
    obtain ⟨j, hj⟩ := List.getElem?_of_mem hp
    rw [(C19_flags S le n sym u m sp w hc i j p (hcell j p hj)).2.1, c1]
  split_ifs with hi
  · rw [List.filter_eq_self.mpr fun p hp => (hflag p hp).mpr hi]
    apply List.map_congr_left
    intro p _
    unfold seedPoint
    ext <;> simp <;> ring
  · rw [List.filter_eq_nil_iff.mpr fun p hp h => hi ((hflag p hp).mp h)]
    rfl

/-- C54 (both steady solvers): after the first run of a solver, whatever earlier runs of other solvers left on the
panels and airplanes, the streamlines start from the middle of the back edge of every trailing-edge panel of every
wing, one streamline per such panel, in the order of the panels, and follow the solved velocity for 25 steps of 0.02
seconds. -/
theorem C54_steady (problem : SteadyProblem) (hmade : ∀ a ∈ problem.airplanes, a.Made) (heap : PanelHeap)
    (loads : List AirplaneLoads) :
    (∀ s, (HorseshoeSolver.create problem heap loads).run = .ok s → ∃ rows, s.streamlines = some rows ∧
      IsStreamlines (fun q => (s.solutionVelocity [q]).headD 0) (trailingEdgePoints problem.airplanes) 25 (1 / 50)
        rows) ∧
    (∀ s, (RingSolver.create problem heap loads).run = .ok s → ∃ rows, s.streamlines = some rows ∧
      IsStreamlines (fun q => (s.solutionVelocity [q]).headD 0) (trailingEdgePoints problem.airplanes) 25 (1 / 50)
        rows) := by
  have hc := counted_of_made hmade
  have hdt : (0.02 : ℝ) = 1 / 50 := by norm_num
  constructor
  · intro s h
    rw [HorseshoeSolver.run_eq _ hc (by simp [HorseshoeSolver.create])] at h
    cases hx : linalgSolve _ _ with
    | error e => rw [hx] at h; simp [Except.map] at h
    | ok x =>
      rw [hx] at h
      simp only [Except.map, Except.ok.injEq] at h
      subst h
      refine ⟨_, rfl, ?_⟩
      have := streamlines_are (fun q => ((((HorseshoeSolver.create problem heap loads).solved x).calculateForces
        ).solutionVelocity [q]).headD 0) (seedsOf problem.airplanes (panelRefs problem.airplanes)) 25 0.02
      rw [seedsOf_panels hmade, hdt] at this
      rw [← hdt] at this ⊢
      have e : ((HorseshoeSolver.create problem heap loads).solved x).calculateForces.seedPoints
          = trailingEdgePoints problem.airplanes := by
        rw [← seedsOf_panels hmade]; exact List.nil_append _
      rw [e]
      exact this
  · intro s h
    rw [RingSolver.run_eq _ hc (by simp [RingSolver.create]) (by simp [RingSolver.create])] at h
    cases hx : linalgSolve _ _ with
    | error e => rw [hx] at h; simp [Except.map] at h
    | ok x =>
      rw [hx] at h
      simp only [Except.map, Except.ok.injEq] at h
      subst h
      refine ⟨_, rfl, ?_⟩
      have := streamlines_are (fun q => ((((RingSolver.create problem heap loads).solved x).calculateForces
        ).solutionVelocity [q]).headD 0) (trailingEdgePoints problem.airplanes) 25 0.02
      rw [← hdt]
      have e : ((RingSolver.create problem heap loads).solved x).calculateForces.seedPoints
          = trailingEdgePoints problem.airplanes := by
        rw [← seedsOf_panels hmade]; exact List.nil_append _
      rw [e]
      exact this

open UnsteadySolver in
/-- C54 (unsteady solver): after a run that is asked for streamlines, the first or a later one, they start from the
middle of the back edge of every trailing-edge panel of every wing as it is at the last step, and follow the velocity
of that step for 25 steps of 0.02 seconds. -/
theorem C54_unsteady {p : UnsteadyProblem} {s s' : UnsteadySolver} {pres : Bool} (hp : p.Made) (hs : Reached p s)
    (h : s.run pres true = .ok s') (k : ℕ) (hk : p.numSteps = k + 1) :
    ∃ rows, s'.streamlines = some rows ∧
      IsStreamlines (flow s' k) (trailingEdgePoints (p.airplanesAt k)) 25 (1 / 50) rows := by
  have hvel := C45_solution_velocity hp hs h k hk
  obtain ⟨st, sm, ht⟩ := hs.trace hp h
  have hkk : k < p.numSteps := by omega
  have hlast : st (k + 1) = sm k := (ht.shed k hkk).last (by omega)
  obtain ⟨addr, hw⟩ := (ht.inv k (by omega)).wake hkk
  obtain ⟨x, _, hst, _⟩ := (ht.inv k (by omega)).solve hp.regular hkk hw (ht.solve k hkk)
  have hseed : (sm k).seedPoints = trailingEdgePoints (p.airplanesAt k) := by
    rw [← seedsOf_panels (hp.regular.made k), hst, ← (ht.inv k (by omega)).problem]
    unfold stepped
    split_ifs <;> rfl
  have hrun : s' = (st (k + 1)).finalize.calculateStreamlines := by
    unfold run at h
    obtain ⟨sn, h1, h2⟩ := bind_ok.mp h
    have h3 := ht.reached p.numSteps le_rfl
    unfold begun at h3
    rw [(hs.good hp.regular).problem, h3] at h1
    cases h1
    rw [← hk]
    simpa [pure, Except.pure] using h2.symm
  have hfin : (st (k + 1)).finalize.seedPoints = trailingEdgePoints (p.airplanesAt k) := by
    rw [finalize_rest, hlast]
    exact hseed
  have hv : (fun q => ((st (k + 1)).finalize.solutionVelocity [q]).headD 0) = flow s' k := by
    funext q
    have := hvel [q]
    rw [hrun] at this
    have e : (st (k + 1)).finalize.calculateStreamlines.solutionVelocity [q]
      = (st (k + 1)).finalize.solutionVelocity [q] := rfl
    rw [e] at this
    rw [this, hrun]
    rfl
  refine ⟨calculateStreamlines (flow s' k) (trailingEdgePoints (p.airplanesAt k)) 25 0.02, ?_, ?_⟩
  · rw [← hv, ← hfin, hrun]
    rfl
  · rw [show (1 / 50 : ℝ) = 0.02 by norm_num]
    exact streamlines_are _ _ _ _

/-- `C54_steady`: the square plate of one panel, with both solvers; its one streamline starts at (1, 1/2, 0).
`C54_unsteady`: the heaving plate of `Verif/Props/UnsteadyExample.lean` meets the hypotheses. -/
example (op : OperatingPoint) (hd : |op.freestreamDirection.y| ≤ op.freestreamDirection.x) :
    ∃ (a : Airplane) (s : HorseshoeSolver) (s' : RingSolver), a.Made ∧
      (HorseshoeSolver.create ⟨[a], op⟩).run = .ok s ∧ (RingSolver.create ⟨[a], op⟩).run = .ok s' ∧
      trailingEdgePoints [a] = [⟨1, 1 / 2, 0⟩] := by
  obtain ⟨a, hmade, hrefs, hp, hspan, _⟩ := plate_airplane
  obtain ⟨s, hs, _⟩ := plate_horseshoe_run (op := op) hmade hrefs hp hspan hd .fresh []
  obtain ⟨s', hs', _⟩ := plate_ring_run (op := op) hmade hrefs hp hspan hd .fresh []
  refine ⟨a, s, s', hmade, hs, hs', ?_⟩
  rw [← seedsOf_panels (by simpa using hmade), hrefs]
  unfold seedsOf
  rw [List.map_cons, geometryOf_eq hp]
  simp only [unitSquare, List.map_nil, List.filter_cons_of_pos, List.filter_nil, List.map_cons, seedPoint]
  congr 1
  ext <;> norm_num

end Ptera
