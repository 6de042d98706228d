import Verif.Lemmas.FlatPanels
import Verif.Lemmas.PlateSymmetric
import Verif.Lemmas.PlateRun
import Verif.Lemmas.PlateUnsteady
import Verif.Props.Watertight
import Verif.Props.Wake

/-!
# C91: panels without area
-/

namespace Ptera

open UnsteadySolver

/-- C91: what the solvers ask of the solver of linear systems: for a square matrix it returns strengths exactly if the
determinant of the matrix is not zero, and then these satisfy the equations and nothing else does. -/
theorem C91_solve {A : List (List ℝ)} (hA : ∀ row ∈ A, row.length = A.length) {b : List ℝ} (hb : b.length = A.length) :
    ((∃ x, linalgSolve A b = .ok x) ↔ (Matrix.of fun i j : Fin A.length => (A[i]).getD j 0).det ≠ 0) ∧
    ∀ x, linalgSolve A b = .ok x → ∀ y : List ℝ, y.length = A.length →
      ((∀ i : Fin A.length, ∑ j : Fin A.length, (A[i]).getD j 0 * y.getD j 0 = b.getD i 0) ↔ y = x) := by
  refine ⟨linalgSolve_iff hA hb, fun x hx y hy => ?_⟩
  have hrow : ∀ z : List ℝ, z.length = A.length → ∀ i : Fin A.length,
      (matVec A z).getD i 0 = ∑ j : Fin A.length, (A[i]).getD j 0 * z.getD j 0 := fun z hz i => matVec_asMatrix hA hz i
  obtain ⟨h1, h2⟩ := linalgSolve_ok hx
  constructor
  · intro h
    refine linalgSolve_unique hx ⟨hy, list_eq_getD (n := A.length) (by simp [matVec]) hb fun i => ?_⟩
    rw [hrow y hy, h]
  · rintro rfl i
    rw [← hrow y h1, h2]

/-- C91: if a panel of the airplanes given to a steady solver has no area, neither steady solver returns results. -/
theorem C91_steady (as : List Airplane) (hm : ∀ a ∈ as, a.Made) (op : OperatingPoint) (heap : PanelHeap)
    (loads : List AirplaneLoads)
    (h : (∃ s', (HorseshoeSolver.create ⟨as, op⟩ heap loads).run = .ok s') ∨
      ∃ s', (RingSolver.create ⟨as, op⟩ heap loads).run = .ok s') :
    ∀ r p, panelAt as r = some p → 0 < p.area ∧ p.unitNormal.norm = 1 := by
  intro r p hr
  have hpos : 0 < p.area := by
    by_contra hc
    obtain ⟨h1, h2⟩ := flat_steady hm hr hc op heap loads
    rcases h with ⟨s', h⟩ | ⟨s', h⟩
    · rw [h1] at h; cases h
    · rw [h2] at h; cases h
  exact ⟨hpos, p.unitNormal_norm hpos⟩

/-- C91: and if that is so at one step of an unsteady problem, no run of it returns results. -/
theorem C91_unsteady {p : UnsteadyProblem} (hp : p.Made) {s s' : UnsteadySolver} (hs : Reached p s) {pres sl : Bool}
    (hrun : s.run pres sl = .ok s') :
    ∀ k < p.numSteps, ∀ r q, panelAt (p.airplanesAt k) r = some q → 0 < q.area ∧ q.unitNormal.norm = 1 := by
  intro k hk r q hr
  have hpos : 0 < q.area := by
    by_contra hc
    obtain ⟨e, he⟩ := flat_unsteady hp hs hk hr hc pres sl
    rw [he] at hrun; cases hrun
  exact ⟨hpos, q.unitNormal_norm hpos⟩

/-- C91: two neighbouring cross sections of a wing in the same place put panels without area between them. -/
theorem C91_sections (sections : List WingCrossSection) (le n : V3) (sym : Bool) (u : V3) (m : ℕ) (sp : String) (W : Wing)
    (h : Wing.create sections le n sym u m sp = .ok W) (pre : List WingCrossSection) (s t : WingCrossSection)
    (post : List WingCrossSection) (hS : sections = pre ++ s :: t :: post) (hs : 0 < s.numSpanwisePanels)
    (hst : t.leadingEdge = s.leadingEdge ∧ t.chord = s.chord ∧ t.twist = s.twist ∧ t.unitNormal = s.unitNormal ∧
      t.airfoil = s.airfoil) :
    ∃ i j p, cell W.panels i j = some p ∧ ¬ 0 < p.area := by
  obtain ⟨hspec, ha⟩ := Wing.create_ok _ _ _ _ _ _ _ W h
  obtain ⟨hm, _⟩ := ha.grid
  obtain ⟨⟨ia, oa, h1, h2, h3⟩, -⟩ := ha.section pre s t post hS 0 hm
  refine ⟨_, _, _, h3 0 hs, ?_⟩
  rw [Panel.no_area_iff]
  simp only [Panel.crossDiagonals, Panel.firstDiagonal, Panel.secondDiagonal, Panel.place, rightPanel]
  obtain ⟨c1, c2, c3, c4, c5⟩ := hst
  rw [c5, h1] at h2
  obtain rfl := Except.ok.inj h2
  have hv : ∀ i j, sectionVertex W.spec { s with wingUnitChordwise := W.spec.unitChordwise }
      { t with wingUnitChordwise := W.spec.unitChordwise } ia ia i j
      = (sectionMcl W.spec.leadingEdge { s with wingUnitChordwise := W.spec.unitChordwise }
          (mclVectors ia W.spec.chordwiseCoordinates)).getD i 0 := by
    intro i j
    have e : sectionMcl W.spec.leadingEdge { t with wingUnitChordwise := W.spec.unitChordwise }
          (mclVectors ia W.spec.chordwiseCoordinates)
        = sectionMcl W.spec.leadingEdge { s with wingUnitChordwise := W.spec.unitChordwise }
          (mclVectors ia W.spec.chordwiseCoordinates) := by
      unfold sectionMcl
      simp only [WingCrossSection.unitUp, WingCrossSection.unitChordwise, c1, c2, c3, c4]
    unfold sectionVertex
    dsimp only
    rw [e]; module
  simp only [hv]
  ext <;> simp [V3.cross] <;> ring

/-- A run to which this applies: the square plate. -/
example (op : OperatingPoint) (hd : |op.freestreamDirection.y| ≤ op.freestreamDirection.x) :
    ∃ (a : Airplane) (p : Panel) (s : HorseshoeSolver), (HorseshoeSolver.create ⟨[a], op⟩).run = .ok s ∧
      panelAt [a] ⟨0, 0, 0, 0⟩ = some p ∧ 0 < p.area ∧ p.unitNormal.norm = 1 := by
  obtain ⟨a, hmade, hrefs, hp, hspan, _⟩ := plate_airplane
  obtain ⟨s, hs, _⟩ := plate_horseshoe_run (op := op) hmade hrefs hp hspan hd .fresh []
  obtain ⟨p, hp'⟩ := (mem_panelRefs [a] ⟨0, 0, 0, 0⟩).mp (by rw [hrefs]; simp)
  exact ⟨a, p, s, hs, hp', C91_steady [a] (by simpa using hmade) op .fresh [] (Or.inl ⟨s, hs⟩) _ p hp'⟩

/-- An unsteady one: the heaving plate. -/
example (A T : ℝ) (n : ℕ) (hn : 0 < n) (dt density velocity alpha : ℝ) (ha : |alpha| ≤ 90) (hdt : 0 < dt)
    (hv : 0 < velocity) (pres sl : Bool) : ∃ (p : UnsteadyProblem) (s s' : UnsteadySolver), p.Made ∧
      UnsteadySolver.create p = .ok s ∧ p.numSteps = n ∧ s.run pres sl = .ok s' ∧
      ∀ k < n, ∀ r q, panelAt (p.airplanesAt k) r = some q → 0 < q.area := by
  obtain ⟨p, hp, _⟩ := heaving_problem A T n hn dt density velocity alpha 0 false
  obtain ⟨s, hs⟩ := hp.create hn
  obtain ⟨s', h'⟩ := hp.run hdt.le hv.le (flies_ahead density velocity alpha ha) (.fresh hs) pres sl
  refine ⟨p, s, s', hp.made, hs, hp.steps, h', fun k hk r q hr => ?_⟩
  exact (C91_unsteady hp.made (.fresh hs) h' k (by rw [hp.steps]; exact hk) r q hr).1

/-- A wing that is accepted but never solved: a cross section was given twice. -/
example (op : OperatingPoint) (heap : PanelHeap) : ∃ A w,
    Wing.create [plateSection 0 2 0 0 "symmetric" 3 "cosine", plateSection ⟨0, 1, 0⟩ 1 0 0 "symmetric" 2 "uniform",
      plateSection ⟨0, 1, 0⟩ 1 0 0 "symmetric" 2 "uniform"] 0 ⟨0, 1, 0⟩ true ⟨1, 0, 0⟩ 2 "uniform" = .ok w ∧
    Airplane.create [w] = .ok A ∧ A.Made ∧ ∀ s', (RingSolver.create ⟨[A], op⟩ heap []).run ≠ .ok s' := by
  obtain ⟨w, hw⟩ := plateWing_accepted [plateSection 0 2 0 0 "symmetric" 3 "cosine",
    plateSection ⟨0, 1, 0⟩ 1 0 0 "symmetric" 2 "uniform", plateSection ⟨0, 1, 0⟩ 1 0 0 "symmetric" 2 "uniform"] true 2
    two_pos "uniform" (by simp) (by simp) (by simp [plateSection]) (by
      intro s hs
      simp only [List.mem_cons, List.not_mem_nil, or_false] at hs
      rcases hs with rfl | rfl | rfl <;> exact ⟨_, _, _, _, _, _, _, rfl, by norm_num⟩) 0 (by simp [plateSection])
  obtain ⟨A, hA⟩ : ∃ A, Airplane.create [w] = .ok A := ⟨_, rfl⟩
  have hmade : A.Made :=
    ⟨_, _, _, _, _, _, hA, fun w' hw' => by rw [List.mem_singleton.mp hw']; exact ⟨_, _, _, _, _, _, _, hw⟩⟩
  have hAw : A.wings = [w] := by
    simp only [Airplane.create, Except.ok.injEq] at hA
    rw [← hA]
  refine ⟨A, w, hw, hA, hmade, fun s' hs' => ?_⟩
  obtain ⟨i, j, p, hp, hflat⟩ := C91_sections _ _ _ _ _ _ _ w hw
    [plateSection 0 2 0 0 "symmetric" 3 "cosine"] (plateSection ⟨0, 1, 0⟩ 1 0 0 "symmetric" 2 "uniform")
    (plateSection ⟨0, 1, 0⟩ 1 0 0 "symmetric" 2 "uniform") [] rfl (by simp [plateSection])
    ⟨rfl, rfl, rfl, rfl, rfl⟩
  have hr : panelAt [A] ⟨0, 0, i, j⟩ = some p := by
    rw [cell_panelAt (a := A) (w := w) rfl (by rw [hAw]; rfl)]
    exact hp
  exact hflat (C91_steady [A] (by simpa using hmade) op heap [] (Or.inr ⟨s', hs'⟩) _ p hr).1

end Ptera
