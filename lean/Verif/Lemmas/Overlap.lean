import Verif.Spec.Overlap
import Verif.Lemmas.SimilarRuns
import Verif.Lemmas.UnsteadySimilar
import Verif.Props.Mesh
import Verif.Props.Frames

/-! Two panels in the same place make the system singular. -/

namespace Ptera

/-- Proportional columns make a system singular. -/
theorem linalgSolve_columns {α : Type} [DecidableEq α] {l : List α} (hl : l.Nodup) {A : α → α → ℝ} {a b : α} (ha : a ∈ l)
    (hb : b ∈ l) (hab : a ≠ b) (c : ℝ) (hA : ∀ i ∈ l, A i b = c * A i a) (v : List ℝ) :
    linalgSolve (l.map fun i => l.map fun j => A i j) v = .error .linAlgError := by
  cases h : linalgSolve (l.map fun i => l.map fun j => A i j) v with
  | error e => rw [linalgSolve_error h]
  | ok x =>
    exfalso
    obtain ⟨h1, h2⟩ := linalgSolve_ok h
    rw [List.length_map] at h1
    obtain ⟨Γ, rfl⟩ := exists_values hl h1
    rw [matVec_values] at h2
    set δ : α → ℝ := fun j => (if j = a then c else 0) - (if j = b then 1 else 0) with hδ
    have hsum : ∀ i ∈ l, (l.map fun j => A i j * (Γ j + δ j)).sum = (l.map fun j => A i j * Γ j).sum := by
      intro i hi
      have hone : ∀ (d : α) (y : ℝ), d ∈ l → (l.map fun j => A i j * (if j = d then y else 0)).sum = A i d * y := by
        intro d y hd
        rw [← List.sum_toFinset _ hl, Finset.sum_eq_single d]
        · simp
        · intro j _ hj; simp [hj]
        · intro hn; exact absurd (List.mem_toFinset.mpr hd) hn
      have hsub : ∀ (m : List α), (m.map fun j => A i j * (Γ j + δ j)).sum = (m.map fun j => A i j * Γ j).sum
          + ((m.map fun j => A i j * (if j = a then c else 0)).sum - (m.map fun j => A i j * (if j = b then 1 else 0)).sum) := by
        intro m
        induction m with
        | nil => simp
        | cons j m ih =>
          simp only [List.map_cons, List.sum_cons]
          rw [ih]
          simp only [hδ]
          ring
      rw [hsub, hone a c ha, hone b 1 hb, hA i hi]
      ring
    have h3 : l.map (fun j => Γ j + δ j) = l.map Γ := by
      refine linalgSolve_unique h ⟨by simp, ?_⟩
      rw [matVec_values, ← h2]
      exact List.map_congr_left hsum
    have := map_inj_left h3 b hb
    simp only [hδ, if_neg (Ne.symm hab), if_true] at this
    linarith

/-- The sign of the strength of a vortex that is perhaps reversed. -/
noncomputable def turned (m : Bool) : ℝ := if m then -1 else 1

theorem turned_ring (m : Bool) (br fr fl bl q : V3) :
    unitVelocity (ringLegs (if m then bl else br) (if m then fl else fr) (if m then fr else fl) (if m then br else bl)) q
      = turned m • unitVelocity (ringLegs br fr fl bl) q := by
  unfold turned
  cases m
  · simp
  · simp only [unitVelocity, ringLegs, List.map_cons, List.map_nil, List.sum_cons, List.sum_nil, if_true]
    rw [entry_reverse' fl bl, entry_reverse' fr fl, entry_reverse' br fr, entry_reverse' bl br]
    module

theorem turned_horseshoe (m : Bool) (br fr fl bl q : V3) :
    unitVelocity (horseshoeLegs (if m then bl else br) (if m then fl else fr) (if m then fr else fl)
      (if m then br else bl)) q = turned m • unitVelocity (horseshoeLegs br fr fl bl) q := by
  unfold turned
  cases m
  · simp
  · simp only [unitVelocity, horseshoeLegs, List.map_cons, List.map_nil, List.sum_cons, List.sum_nil, if_true]
    rw [entry_reverse' fl bl, entry_reverse' fr fl, entry_reverse' br fr]
    module

/-- Two panels with the same corners, perhaps with left and right exchanged. -/
structure SameCorners (m : Bool) (p p' : Panel) : Prop where
  frontLeft : p'.frontLeft = if m then p.frontRight else p.frontLeft
  frontRight : p'.frontRight = if m then p.frontLeft else p.frontRight
  backLeft : p'.backLeft = if m then p.backRight else p.backLeft
  backRight : p'.backRight = if m then p.backLeft else p.backRight
  trailing : p'.isTrailingEdge = p.isTrailingEdge

theorem SameCorners.vertices {m : Bool} {p p' : Panel} (h : SameCorners m p p') :
    p'.frontLeftVortexVertex = (if m then p.frontRightVortexVertex else p.frontLeftVortexVertex) ∧
    p'.frontRightVortexVertex = (if m then p.frontLeftVortexVertex else p.frontRightVortexVertex) := by
  simp only [Panel.frontLeftVortexVertex, Panel.frontRightVortexVertex, Panel.leftLeg, Panel.rightLeg, h.frontLeft,
    h.frontRight, h.backLeft, h.backRight]
  cases m
  · simp
  · constructor <;> ext <;> simp <;> ring

/-- Two panels in the same place, perhaps with left and right exchanged, and so the panels behind them. -/
structure OnTop (as : List Airplane) (m : Bool) (r r' : PanelRef) : Prop where
  here : r ∈ panelRefs as
  there : r' ∈ panelRefs as
  apart : r ≠ r'
  span : ((wingAt as r').map (·.span)).getD 0 = ((wingAt as r).map (·.span)).getD 0
  image : SameCorners m (geometryOf as r) (geometryOf as r')
  behind : (geometryOf as r).isTrailingEdge = false →
    SameCorners m (geometryOf as { r with row := r.row + 1 }) (geometryOf as { r' with row := r'.row + 1 })

variable {as : List Airplane} {m : Bool} {r r' : PanelRef}

namespace OnTop

theorem horseshoe (h : OnTop as m r r') (op : OperatingPoint) (q : V3) :
    HorseshoeSolver.panelUnit ⟨as, op⟩ r' q = turned m • HorseshoeSolver.panelUnit ⟨as, op⟩ r q := by
  obtain ⟨e1, e2⟩ := h.image.vertices
  unfold HorseshoeSolver.panelUnit HorseshoeSolver.unit
  rw [← turned_horseshoe]
  simp only [HorseshoeSolver.slotOf, HorseshoeSolver.panelVortex, HorseshoeSolver.create, HorseshoeVortex.mk',
    LineVortex.mk', h.span, e1, e2]
  cases m <;> simp

theorem back (h : OnTop as m r r') :
    RingSolver.backLeftVertex as r' = (if m then RingSolver.backRightVertex as r else RingSolver.backLeftVertex as r) ∧
    RingSolver.backRightVertex as r' = (if m then RingSolver.backLeftVertex as r else RingSolver.backRightVertex as r) := by
  obtain ⟨e1, e2⟩ := h.image.vertices
  unfold RingSolver.backLeftVertex RingSolver.backRightVertex
  simp only [h.image.trailing]
  by_cases hb : (geometryOf as r).isTrailingEdge = true
  · simp only [hb, if_true, e1, e2, h.image.frontLeft, h.image.frontRight, h.image.backLeft, h.image.backRight]
    cases m <;> simp
  · have hb' : (geometryOf as r).isTrailingEdge = false := by simpa using hb
    simp only [hb', Bool.false_eq_true, if_false]
    exact (h.behind hb').vertices

theorem ring (h : OnTop as m r r') (op : OperatingPoint) (q : V3) :
    (RingSolver.create ⟨as, op⟩).panelUnit r' q = turned m • (RingSolver.create ⟨as, op⟩).panelUnit r q := by
  obtain ⟨e1, e2⟩ := h.image.vertices
  obtain ⟨e3, e4⟩ := h.back
  have hA : (RingSolver.create ⟨as, op⟩).airplanes = as := rfl
  unfold RingSolver.panelUnit RingSolver.firstTrailing
  rw [smul_add, hA, h.image.trailing]
  congr 1
  · unfold RingSolver.unit
    rw [← turned_ring]
    simp only [ringSlot, RingSolver.panelRing, RingVortex.mk', LineVortex.mk', e1, e2, e3, e4]
  · by_cases hb : (geometryOf as r).isTrailingEdge = true
    · simp only [hb, if_true]
      simp only [RingSolver.trailingSlot, one_smul]
      unfold RingSolver.unitT
      rw [← turned_horseshoe]
      simp only [RingSolver.panelHorseshoe, hA, HorseshoeVortex.mk', LineVortex.mk', h.span, e3, e4]
      cases m <;> simp
    · simp only [hb, Bool.false_eq_true, if_false]
      simp

theorem bound {p : UnsteadyProblem} {k : ℕ} (h : OnTop (p.airplanesAt k) m r r') (q : V3) :
    UnsteadySolver.unitRing p k r' q = turned m • UnsteadySolver.unitRing p k r q := by
  obtain ⟨e1, e2⟩ := h.image.vertices
  have e3 : UnsteadySolver.backLeftVertex (p.airplanesAt k) (p.operatingPointAt k).freestreamVelocity p.deltaTime r'
      = (if m then UnsteadySolver.backRightVertex (p.airplanesAt k) (p.operatingPointAt k).freestreamVelocity p.deltaTime r
        else UnsteadySolver.backLeftVertex (p.airplanesAt k) (p.operatingPointAt k).freestreamVelocity p.deltaTime r) ∧
      UnsteadySolver.backRightVertex (p.airplanesAt k) (p.operatingPointAt k).freestreamVelocity p.deltaTime r'
      = (if m then UnsteadySolver.backLeftVertex (p.airplanesAt k) (p.operatingPointAt k).freestreamVelocity p.deltaTime r
        else UnsteadySolver.backRightVertex (p.airplanesAt k) (p.operatingPointAt k).freestreamVelocity p.deltaTime r) := by
    unfold UnsteadySolver.backLeftVertex UnsteadySolver.backRightVertex
    simp only [h.image.trailing]
    by_cases hb : (geometryOf (p.airplanesAt k) r).isTrailingEdge = true
    · simp only [hb, if_true, e1, e2, h.image.frontLeft, h.image.frontRight, h.image.backLeft, h.image.backRight]
      cases m <;> simp
    · have hb' : (geometryOf (p.airplanesAt k) r).isTrailingEdge = false := by simpa using hb
      simp only [hb', Bool.false_eq_true, if_false]
      exact (h.behind hb').vertices
  unfold UnsteadySolver.unitRing
  rw [← turned_ring]
  simp only [UnsteadySolver.boundRing, UnsteadySolver.panelRing, RingVortex.mk', e1, e2, e3.1, e3.2]

/-- The systems of all solvers are singular. -/
theorem singular (h : OnTop as m r r') (hm : ∀ a ∈ as, a.Made) (op : OperatingPoint) (heap : PanelHeap)
    (loads : List AirplaneLoads) :
    (HorseshoeSolver.create ⟨as, op⟩ heap loads).run = .error .linAlgError ∧
    (RingSolver.create ⟨as, op⟩ heap loads).run = .error .linAlgError := by
  constructor
  · obtain ⟨e1, e2⟩ := HorseshoeSolver.system_eq ⟨as, op⟩ hm heap loads
    rw [HorseshoeSolver.run_eq _ (counted_of_made hm) (by simp [HorseshoeSolver.create]), e1, e2,
      linalgSolve_columns (panelRefs_nodup as) h.here h.there h.apart (turned m)]
    · rfl
    · intro i _
      unfold HorseshoeSolver.coefficient
      rw [h.horseshoe, V3.smul_dot]
  · obtain ⟨e1, e2⟩ := RingSolver.system_eq ⟨as, op⟩ hm heap loads
    rw [RingSolver.run_eq _ (counted_of_made hm) (by simp [RingSolver.create]) (by simp [RingSolver.create]), e1, e2,
      linalgSolve_columns (panelRefs_nodup as) h.here h.there h.apart (turned m)]
    · rfl
    · intro i _
      unfold RingSolver.coefficient
      rw [h.ring, V3.smul_dot]

theorem unsteady {p : UnsteadyProblem} (hp : p.Made) {s : UnsteadySolver} (hs : UnsteadySolver.Reached p s) {k : ℕ}
    (hk : k < p.numSteps) (h : OnTop (p.airplanesAt k) m r r') (pres sl : Bool) :
    ∃ e, s.run pres sl = .error e := by
  cases hrun : s.run pres sl with
  | error e => exact ⟨e, rfl⟩
  | ok s' =>
    exfalso
    obtain ⟨st, sm, ht⟩ := hs.trace hp hrun
    obtain ⟨Γ, hΓ, -⟩ := ht.values hp.regular hk
    have hu : UnsteadySolver.wingMatrix p k = (panelRefs (p.airplanesAt k)).map fun i =>
        (panelRefs (p.airplanesAt k)).map fun j =>
          (UnsteadySolver.unitRing p k j (geometryOf (p.airplanesAt k) i).collocationPoint).dot
            (geometryOf (p.airplanesAt k) i).unitNormal := rfl
    rw [hu, linalgSolve_columns (panelRefs_nodup _) h.here h.there h.apart (turned m)] at hΓ
    · cases hΓ
    · intro i _
      rw [h.bound, V3.smul_dot]

end OnTop

theorem WingTwice.onTop (h : WingTwice as) : ∃ r r', OnTop as false r r' := by
  obtain ⟨a, w, a', w', A, A', W, hne, h1, h2, h3, h4, i, j, p, hp⟩ := h
  have key : ∀ i j, panelAt as ⟨a', w', i, j⟩ = panelAt as ⟨a, w, i, j⟩ := by
    intro i j
    rw [cell_panelAt (r := ⟨a', w', i, j⟩) h2 h4, cell_panelAt (r := ⟨a, w, i, j⟩) h1 h3]
  have same : ∀ q : Panel, SameCorners false q q := fun q => ⟨rfl, rfl, rfl, rfl, rfl⟩
  have hp' : panelAt as ⟨a, w, i, j⟩ = some p := by rw [cell_panelAt (r := ⟨a, w, i, j⟩) h1 h3]; exact hp
  refine ⟨⟨a, w, i, j⟩, ⟨a', w', i, j⟩, ?_, ?_, ?_, ?_, ?_, ?_⟩
  · exact (mem_panelRefs _ _).mpr ⟨p, hp'⟩
  · exact (mem_panelRefs _ _).mpr ⟨p, by rw [key]; exact hp'⟩
  · intro e
    simp only [PanelRef.mk.injEq] at e
    exact hne (by rw [e.1, e.2.1])
  · unfold wingAt
    simp only [h1, h2, Option.bind_some, h3, h4]
  · unfold geometryOf
    rw [key]
    exact same _
  · intro _
    unfold geometryOf
    rw [key]
    exact same _

theorem WingInItsMirror.onTop (hm : ∀ a ∈ as, a.Made) (h : WingInItsMirror as) : ∃ r r', OnTop as true r r' := by
  obtain ⟨A, W, sections, le, n, u, m, sp, hA, hW, hc, hn, hcs, ⟨i, j, p, hp⟩, hplane⟩ := h
  obtain ⟨a, ha⟩ := List.mem_iff_getElem?.mp hA
  obtain ⟨w, hw⟩ := List.mem_iff_getElem?.mp hW
  obtain ⟨-, -, hns, -⟩ := C18_wing_counts sections le n true u m sp W hc
  have hcells := made_cells (w := W) ⟨_, _, _, _, _, _, _, hc⟩
  obtain ⟨hi, hj⟩ := (hcells i j).mp ⟨p, hp⟩
  have hat : ∀ i j, panelAt as ⟨a, w, i, j⟩ = cell W.panels i j := fun i j => cell_panelAt (r := ⟨a, w, i, j⟩) ha hw
  have key : ∀ i q, cell W.panels i j = some q → ∃ q', cell W.panels i (W.numSpanwisePanels - 1 - j) = some q' ∧
      SameCorners true q q' := by
    intro i q hq
    obtain ⟨hi, _⟩ := (hcells i j).mp ⟨q, hq⟩
    obtain ⟨q', hq'⟩ := (hcells i (W.numSpanwisePanels - 1 - j)).mpr ⟨hi, by omega⟩
    obtain ⟨e1, e2, e3, e4, _, e6⟩ := C21_mirror sections le n u m sp W hc hcs hn i j q q' hq hq'
    refine ⟨q', hq', ?_, ?_, ?_, ?_, e6⟩
    · rw [e1, (C05_reflect_fixed_iff _ _ _ hn).mpr (hplane i j q hq _ (by simp))]; simp
    · rw [e2, (C05_reflect_fixed_iff _ _ _ hn).mpr (hplane i j q hq _ (by simp))]; simp
    · rw [e3, (C05_reflect_fixed_iff _ _ _ hn).mpr (hplane i j q hq _ (by simp))]; simp
    · rw [e4, (C05_reflect_fixed_iff _ _ _ hn).mpr (hplane i j q hq _ (by simp))]; simp
  obtain ⟨p', hp', hsame⟩ := key i p hp
  refine ⟨⟨a, w, i, j⟩, ⟨a, w, i, W.numSpanwisePanels - 1 - j⟩, ?_, ?_, ?_, rfl, ?_, ?_⟩
  · exact (mem_panelRefs _ _).mpr ⟨p, (hat i j).trans hp⟩
  · exact (mem_panelRefs _ _).mpr ⟨p', (hat _ _).trans hp'⟩
  · intro e
    simp only [PanelRef.mk.injEq] at e
    have := e.2.2.2
    rw [hns] at this hj
    simp only [if_true] at this hj
    omega
  · unfold geometryOf
    rw [hat, hat, hp, hp']
    exact hsame
  · intro hte
    obtain ⟨q, hq⟩ := Option.ne_none_iff_exists'.mp (fun e => by
      have := (made_flags hm ((hat i j).trans hp)).trailing.mpr e
      unfold geometryOf at hte
      rw [hat, hp] at hte
      simp only [Option.getD_some] at hte
      rw [this] at hte
      cases hte)
    have hq0 : cell W.panels (i + 1) j = some q := by rw [← hat]; exact hq
    obtain ⟨q', hq', hs'⟩ := key (i + 1) q hq0
    unfold geometryOf
    rw [hat, hat]
    dsimp only
    rw [hq0, hq']
    exact hs'

end Ptera
