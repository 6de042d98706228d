import Verif.Lemmas.PlateSolve
import Verif.Lemmas.FinalLoads
import Verif.Props.StaticMotion
import Verif.Props.Wake
import Verif.Props.UnsteadyFlow

/-! A heaving square plate with a single panel per step: the unsteady solver solves it at every step. Concrete case
for the theorems about that solver. -/

namespace Ptera

open UnsteadySolver

/-! ## Runs succeed when every system can be solved -/

/-- The matrix of step `k`: normal velocities induced at the collocation points by the bound rings with unit
strength. -/
noncomputable def UnsteadySolver.wingMatrix (p : UnsteadyProblem) (k : ℕ) : List (List ℝ) :=
  (panelRefs (p.airplanesAt k)).map fun i => (panelRefs (p.airplanesAt k)).map fun j =>
    (unitRing p k j (geometryOf (p.airplanesAt k) i).collocationPoint).dot (geometryOf (p.airplanesAt k) i).unitNormal

theorem UnsteadySolver.run_solvable {p : UnsteadyProblem} {s : UnsteadySolver} (hp : p.Regular) (hg : Good p s)
    (hsol : ∀ k < p.numSteps, ∀ b : List ℝ, b.length = (panelRefs (p.airplanesAt k)).length →
      ∃ x, linalgSolve (wingMatrix p k) b = .ok x) (pres sl : Bool) : ∃ s', s.run pres sl = .ok s' := by
  have key : ∀ n ≤ p.numSteps, ∃ t, (List.range n).foldlM (runStep pres) s.begun = .ok t := by
    intro n
    induction n with
    | zero => intro _; exact ⟨_, rfl⟩
    | succ n ih =>
      intro hn
      obtain ⟨t, ht⟩ := ih (by omega)
      have hi := inv_prefix hp hg n (by omega) t ht
      obtain ⟨addr, hw⟩ := hi.wake (by omega)
      have hex : ∃ u, t.solveStep n = .ok u := by
        rw [solveStep_eq (hi.ready hp (by omega) hw), hi.influences hp (by omega)]
        obtain ⟨x, hx⟩ := hsol n (by omega) (List.zipWith (fun w f => -w - f)
          (t.assembled n (t.ringAt n) (t.ringAt (n - 1)) (wakeAddresses p n addr)).wake
          (t.assembled n (t.ringAt n) (t.ringAt (n - 1)) (wakeAddresses p n addr)).freestream) (by
            rw [hi.rhs hp (by omega) _ (by intro h0; subst h0; simp [wakeAddresses, cellsOf])]
            simp)
        unfold wingMatrix at hx
        rw [hx]
        exact ⟨_, rfl⟩
      obtain ⟨u, hu⟩ := hex
      refine ⟨u.populateNextWake pres, ?_⟩
      rw [List.range_succ, List.foldlM_append, ht]
      simp [bind, Except.bind, runStep, hu, pure, Except.pure]
  obtain ⟨t, ht⟩ := key p.numSteps le_rfl
  refine ⟨if sl then t.finalize.calculateStreamlines else t.finalize, ?_⟩
  unfold UnsteadySolver.run
  rw [hg.problem]
  unfold begun at ht
  rw [ht]
  rfl

/-! ## The plate at height `z` -/

def squareAt (z : ℝ) : Panel :=
  { frontLeft := ⟨0, 0, z⟩, frontRight := ⟨0, 1, z⟩, backLeft := ⟨1, 0, z⟩, backRight := ⟨1, 1, z⟩
    isLeadingEdge := true, isTrailingEdge := true, isRightEdge := true, isLeftEdge := true
    localChordwise := 0, localSpanwise := 0 }

theorem squareAt_normal (z : ℝ) : (squareAt z).unitNormal = ⟨0, 0, 1⟩ := by
  have : (squareAt z).crossDiagonals = unitSquare.crossDiagonals := by
    ext <;> simp [Panel.crossDiagonals, Panel.firstDiagonal, Panel.secondDiagonal, unitSquare, squareAt]
  unfold Panel.unitNormal
  rw [this]
  exact unitSquare_normal

theorem squareAt_points (z : ℝ) : (squareAt z).collocationPoint = ⟨3 / 4, 1 / 2, z⟩ ∧
    (squareAt z).frontRightVortexVertex = ⟨1 / 4, 1, z⟩ ∧ (squareAt z).frontLeftVortexVertex = ⟨1 / 4, 0, z⟩ := by
  refine ⟨?_, ?_, ?_⟩ <;> ext <;>
    simp [Panel.collocationPoint, Panel.frontRightVortexVertex, Panel.frontLeftVortexVertex, Panel.rightLeg,
      Panel.leftLeg, squareAt] <;> norm_num

/-- Self-influence of the plate's ring, with the trailing-edge displacement `u`. -/
theorem squareAt_ring_pos (z : ℝ) (u : V3) (h : |u.y| ≤ u.x) :
    0 < (unitVelocity (ringLegs (⟨5 / 4, 1, z⟩ + u) ⟨1 / 4, 1, z⟩ ⟨1 / 4, 0, z⟩ (⟨5 / 4, 0, z⟩ + u))
      ⟨3 / 4, 1 / 2, z⟩).dot ⟨0, 0, 1⟩ := by
  obtain ⟨h1, h2⟩ := abs_le.mp h
  have e1 := entry_nonneg (⟨5 / 4, 1, z⟩ + u) ⟨1 / 4, 1, z⟩ ⟨3 / 4, 1 / 2, z⟩ ⟨0, 0, 1⟩
    (by simp [V3.dot]; linarith)
  have e3 := entry_nonneg ⟨1 / 4, 0, z⟩ (⟨5 / 4, 0, z⟩ + u) ⟨3 / 4, 1 / 2, z⟩ ⟨0, 0, 1⟩
    (by simp [V3.dot]; linarith)
  have e4 := entry_nonneg (⟨5 / 4, 0, z⟩ + u) (⟨5 / 4, 1, z⟩ + u) ⟨3 / 4, 1 / 2, z⟩ ⟨0, 0, 1⟩
    (by simp [V3.dot]; nlinarith)
  have e2 : 0 < (expandedEntry 0 ⟨⟨1 / 4, 1, z⟩, ⟨1 / 4, 0, z⟩, 1, 0⟩ ⟨3 / 4, 1 / 2, z⟩).dot ⟨0, 0, 1⟩ := by
    apply entry_pos
    · simp [V3.dot]; norm_num
    · have he : eps ≤ 1 / 4 := by unfold eps; norm_num
      have hn : ∀ v : V3, v.dot v = 1 / 2 → eps ≤ v.norm := by
        intro v hv
        unfold V3.norm
        rw [hv]
        refine he.trans ?_
        apply Real.le_sqrt_of_sq_le
        norm_num
      unfold Cutoff
      push Not
      refine ⟨hn _ ?_, hn _ ?_, ?_⟩
      · simp [V3.dot]; norm_num
      · simp [V3.dot]; norm_num
      · rw [V3.norm_sq]
        refine he.trans ?_
        simp [V3.dot]; norm_num
  unfold unitVelocity ringLegs
  simp only [List.map_cons, List.map_nil, List.sum_cons, List.sum_nil, add_zero, V3.add_dot]
  linarith

/-! ## The problem -/

/-- A problem whose airplane is, at every step, one square plate with a single panel, at height `z k`. -/
structure HeavingPlate (p : UnsteadyProblem) (n : ℕ) (dt P : ℝ) (z : ℕ → ℝ) (op : OperatingPoint) : Prop where
  made : p.Made
  steps : p.numSteps = n
  dt : p.deltaTime = dt
  period : p.maxPeriod = P
  step : ∀ k < n, p.operatingPointAt k = op ∧ ∃ a w, p.airplanesAt k = [a] ∧ a.wings = [w] ∧
    w.numSpanwisePanels = 1 ∧ w.panels = [[squareAt (z k)]] ∧ w.spec.numChordwisePanels = 1 ∧ a.sRef = 1
  references : ∀ k < n, ∀ a ∈ p.airplanesAt k, a.bRef = 1 ∧ a.cRef = 1

/-- The movement of the plate. -/
noncomputable def heave (w : Wing) (A P : ℝ) : WingMovement :=
  { plateMovement w with zLe := { amplitude := A, period := P } }

/-- Two sections of a square plate; the number of panels of the last one is not used. -/
noncomputable def plates (e : ℕ) : List WingCrossSection :=
  [plateSection ⟨0, 0, 0⟩ 1 0 0 "symmetric" 1 "uniform", plateSection ⟨0, 1, 0⟩ 1 0 0 "symmetric" e "uniform"]

theorem plates_create (e : ℕ) (z : ℝ) :
    ∃ w, Wing.create (stripSections 1 [0, 1]) ⟨0, 0, z⟩ ⟨0, 1, 0⟩ false ⟨1, 0, 0⟩ 1 "uniform" = .ok w ∧
      Wing.create (plates e) ⟨0, 0, z⟩ ⟨0, 1, 0⟩ false ⟨1, 0, 0⟩ 1 "uniform" =
        .ok { w with sections := withChordwise ⟨1, 0, 0⟩ (plates e) } := by
  obtain ⟨w, hw, -⟩ := strip_wing z 1 [0, 1] (by simp) rfl
  refine ⟨w, hw, ?_⟩
  obtain ⟨w', hw'⟩ := plateWing_accepted (plates e) false 1 one_pos "uniform" (by simp) (by simp [plates])
    (by simp [plates, plateSection]; rfl) (by
      intro s hs
      simp only [plates, List.mem_cons, List.not_mem_nil, or_false] at hs
      rcases hs with rfl | rfl <;> exact ⟨_, _, _, _, _, _, _, rfl, by norm_num⟩) ⟨0, 0, z⟩
  rw [hw']
  obtain ⟨s1, a1⟩ := Wing.create_ok _ _ _ _ _ _ _ w hw
  obtain ⟨s2, a2⟩ := Wing.create_ok _ _ _ _ _ _ _ w' hw'
  have n1 : w.numSpanwisePanels = 1 := by rw [a1.nspan, s1]; simp [stripSections, plateSection]
  have n2 : w'.numSpanwisePanels = 1 := by rw [a2.nspan, s2]; simp [plates, plateSection]
  have m1 := a1.mesh
  have m2 := a2.mesh
  have t1 := a1.stored
  have t2 := a2.stored
  have k1 := a1.npanels
  have k2 := a2.npanels
  rw [t1, n1, s1] at m1
  rw [t2, n2, s2] at m2
  have hm : meshWing ⟨⟨0, 0, z⟩, ⟨0, 1, 0⟩, false, ⟨1, 0, 0⟩, 1, "uniform"⟩ (withChordwise ⟨1, 0, 0⟩ (plates e)) 1 =
      meshWing ⟨⟨0, 0, z⟩, ⟨0, 1, 0⟩, false, ⟨1, 0, 0⟩, 1, "uniform"⟩
        (withChordwise ⟨1, 0, 0⟩ (stripSections 1 [0, 1])) 1 := rfl
  have hp : w'.panels = w.panels := by
    have := m2.symm.trans (hm.trans m1)
    exact Except.ok.inj this
  rw [n1, s1] at k1
  rw [n2, s2] at k2
  rw [s2] at t2
  obtain ⟨a, b, c, d, f⟩ := w
  obtain ⟨a', b', c', d', f'⟩ := w'
  simp only at *
  simp [t2, s1, s2, n1, n2, k1, k2, hp]

theorem strip_panels (e : ℕ) (z : ℝ) {w : Wing}
    (h : Wing.create (plates e) ⟨0, 0, z⟩ ⟨0, 1, 0⟩ false ⟨1, 0, 0⟩ 1 "uniform" = .ok w) :
    w.numSpanwisePanels = 1 ∧ w.panels = [[squareAt z]] ∧ w.spec.numChordwisePanels = 1 ∧ w.projectedArea = 1 := by
  obtain ⟨w₀, hw₀, hw⟩ := plates_create e z
  obtain ⟨w', hw', _, hn, hl, _, hcell⟩ := strip_wing z 1 [0, 1] (by simp) rfl
  rw [hw₀] at hw'
  obtain rfl := Except.ok.inj hw'
  rw [h] at hw
  have hw := Except.ok.inj hw
  replace hn : w.numSpanwisePanels = [(0 : ℝ), 1].length - 1 := by rw [hw]; exact hn
  replace hl : w.panels.length = 1 := by rw [hw]; exact hl
  replace hcell : ∀ (j : ℕ) (y₀ y₁ : ℝ), [(0 : ℝ), 1][j]? = some y₀ → [(0 : ℝ), 1][j + 1]? = some y₁ →
      cell w.panels 0 j = some (stripPanel z 1 y₀ y₁ ([(0 : ℝ), 1].length - 1) j) := by rw [hw]; exact hcell
  have h2 := (C18_wing_counts _ _ _ _ _ _ _ w h).2.1
  obtain ⟨row, hrow⟩ := List.length_eq_one_iff.mp hl
  have hr : row.length = 1 := by
    have := h2 row (by rw [hrow]; simp)
    rw [this, hn]
    rfl
  obtain ⟨c, hc⟩ := List.length_eq_one_iff.mp hr
  have := hcell 0 0 1 rfl rfl
  rw [hrow, hc] at this
  simp only [cell, List.getElem?_cons_zero, Option.bind_some, Option.some.injEq] at this
  obtain ⟨hs, _⟩ := Wing.create_ok _ _ _ _ _ _ _ w h
  have hpan : w.panels = [[squareAt z]] := by
    rw [hrow, hc, this]
    simp [stripPanel, squareAt]
  refine ⟨by simpa using hn, hpan, by rw [hs], ?_⟩
  have hup : w.unitUp = ⟨0, 0, 1⟩ := by
    unfold Wing.unitUp
    rw [hs]
    ext <;> simp
  have hcross : ∀ v : V3, v = ⟨0, 0, 2⟩ → v.norm = 2 := by
    rintro _ rfl
    simp only [V3.norm, V3.dot]
    rw [show (0 * 0 + 0 * 0 + 2 * 2 : ℝ) = 2 ^ 2 by norm_num, Real.sqrt_sq (by norm_num)]
  unfold Wing.projectedArea
  rw [hpan, hup]
  simp only [List.flatten_cons, List.flatten_nil, List.append_nil, List.map_cons, List.map_nil, List.sum_cons,
    List.sum_nil, add_zero, Panel.projectedArea]
  rw [hcross]
  · norm_num
  · ext <;> simp [Panel.firstDiagonal, Panel.secondDiagonal, squareAt, V3.dot]
    norm_num

theorem strip_references (e : ℕ) (z : ℝ) {w : Wing}
    (h : Wing.create (plates e) ⟨0, 0, z⟩ ⟨0, 1, 0⟩ false ⟨1, 0, 0⟩ 1 "uniform" = .ok w) :
    w.span = 1 ∧ w.meanAerodynamicChord = 1 := by
  obtain ⟨_, _, _, harea⟩ := strip_panels e z h
  obtain ⟨hs, hacc⟩ := Wing.create_ok _ _ _ _ _ _ _ w h
  have hsec := hacc.stored
  have hone : Wing.projectedSpan ⟨0, 1, 0⟩ (⟨0, 1, 0⟩ - ⟨0, 0, 0⟩) = 1 := by
    simp [Wing.projectedSpan, V3.norm, V3.dot]
  constructor
  · simp only [Wing.span, hsec, hs, withChordwise, plates, plateSection, List.map_cons, List.map_nil,
      List.head?_cons, List.getLast?_cons_cons, List.getLast?_singleton, Option.map_some, Option.getD_some, hone,
      Bool.false_eq_true, if_false]
  · simp only [Wing.meanAerodynamicChord, harea, hsec, hs, withChordwise, plates, plateSection, List.map_cons,
      List.map_nil, List.tail_cons, List.zip_cons_cons, List.zip_nil_right, List.sum_cons, List.sum_nil, Wing.macTerm,
      hone, Bool.false_eq_true, if_false]
    norm_num

theorem heave_proper (e : ℕ) (A P : ℝ) : ∃ w, Wing.create (plates e) ⟨0, 0, 0⟩ ⟨0, 1, 0⟩ false ⟨1, 0, 0⟩ 1
      "uniform" = .ok w ∧ (plateMovement w).Proper (plates e) ∧ (plateMovement w).Still ∧
      (heave w A P).Proper (plates e) := by
  obtain ⟨w, hw⟩ : ∃ w, Wing.create (plates e) ⟨0, 0, 0⟩ ⟨0, 1, 0⟩ false ⟨1, 0, 0⟩ 1 "uniform" = .ok w := by
    obtain ⟨_, _, h⟩ := plates_create e 0
    exact ⟨_, h⟩
  obtain ⟨hspec, hacc⟩ := Wing.create_ok _ _ _ _ _ _ _ _ hw
  have hp : (plateMovement w).Proper (plates e) := by
    refine ⟨?_, ?_, ?_, ?_, ?_, ?_⟩
    · simp only [plateMovement, hspec]; exact hw
    · intro s hs
      simp only [plates, List.mem_cons, List.not_mem_nil, or_false] at hs
      rcases hs with rfl | rfl <;> unfold WingCrossSection.create <;>
        rw [if_neg (by simp [plateSection]), if_neg (by simp [plateSection]), if_neg (by simp [plateSection])] <;> rfl
    · simp [plateMovement, Function.comp_def]
    · exact ⟨Or.inl rfl, Or.inl rfl, Or.inl rfl⟩
    · intro m' hm'
      simp only [plateMovement, List.mem_map] at hm'
      obtain ⟨s, _, rfl⟩ := hm'
      exact ⟨Or.inl rfl, Or.inl rfl, Or.inl rfl⟩
    · intro m' hm'
      simp only [plateMovement, List.getElem?_map, Option.map_eq_some_iff] at hm'
      obtain ⟨s, _, rfl⟩ := hm'
      exact ⟨rfl, rfl, rfl, rfl⟩
  refine ⟨w, hw, hp, ⟨⟨Or.inl rfl, Or.inl rfl, Or.inl rfl⟩, ?_⟩, ?_⟩
  · intro m' hm'
    simp only [plateMovement, List.mem_map] at hm'
    obtain ⟨s, _, rfl⟩ := hm'
    exact ⟨Or.inl rfl, Or.inl rfl, Or.inl rfl⟩
  · exact ⟨hp.base, hp.fresh, hp.bases, ⟨Or.inl rfl, Or.inl rfl, Or.inl rfl⟩, hp.sectionSpacings, hp.root⟩

/-- The wing of each step. -/
theorem heave_wings (e : ℕ) {w : Wing} (hw : Wing.create (plates e) ⟨0, 0, 0⟩ ⟨0, 1, 0⟩ false ⟨1, 0, 0⟩ 1
      "uniform" = .ok w) (hp : (plateMovement w).Proper (plates e)) (hs : (plateMovement w).Still)
    (A P : ℝ) (n : ℕ) (hn : 0 < n) (dt : ℝ) {ws : List Wing} (h : (heave w A P).generate n dt = .ok ws) :
    ∀ k < n, ∃ wk, ws[k]? = some wk ∧ wk.numSpanwisePanels = 1 ∧
      wk.panels = [[squareAt ((oscillatingSinspace A P 0 n dt).getD k 0)]] ∧ wk.spec.numChordwisePanels = 1 ∧
      wk.projectedArea = 1 ∧ wk.span = 1 ∧ wk.meanAerodynamicChord = 1 := by
  obtain ⟨xs, ys, zs, H, h1, h2, h3, h4, _, hk⟩ := WingMovement.generate_ok h
  obtain ⟨hspec, _⟩ := Wing.create_ok _ _ _ _ _ _ _ _ hw
  have hH : H = (plates e).map (List.replicate n) := by
    refine (histories_still hp hs n hn dt h4).mpr ?_
    intro q hq
    simp [plates] at hq
    subst hq
    right
    simp [plateSection]
  have hx : xs = List.replicate n 0 := by
    have hv : ({} : Oscillation).Valid := Or.inl rfl
    have := hv.values_still (Or.inl rfl) w.spec.leadingEdge.x n dt
    rw [hspec] at this
    change ({} : Oscillation).values w.spec.leadingEdge.x n dt = .ok xs at h1
    rw [hspec, this] at h1
    exact (Except.ok.inj h1).symm
  have hy : ys = List.replicate n 0 := by
    have hv : ({} : Oscillation).Valid := Or.inl rfl
    have := hv.values_still (Or.inl rfl) w.spec.leadingEdge.y n dt
    rw [hspec] at this
    change ({} : Oscillation).values w.spec.leadingEdge.y n dt = .ok ys at h2
    rw [hspec, this] at h2
    exact (Except.ok.inj h2).symm
  have hz : zs = oscillatingSinspace A P 0 n dt := by
    change ({ amplitude := A, period := P } : Oscillation).values w.spec.leadingEdge.z n dt = .ok zs at h3
    rw [hspec] at h3
    simp [Oscillation.values] at h3
    exact h3.symm
  intro k hkn
  obtain ⟨wk, e1, e2⟩ := hk k hkn
  rw [hH, column_map_replicate _ _ _ hkn] at e2
  have e3 : (heave w A P).base.spec = w.spec := rfl
  rw [e3, hspec] at e2
  have x0 : xs.getD k 0 = 0 := by rw [hx, List.getD_eq_getElem?_getD]; simp [hkn]
  have y0 : ys.getD k 0 = 0 := by rw [hy, List.getD_eq_getElem?_getD]; simp [hkn]
  rw [x0, y0, hz] at e2
  obtain ⟨p1, p2, p3, p4⟩ := strip_panels e _ e2
  exact ⟨wk, e1, p1, p2, p3, p4, strip_references e _ e2⟩

theorem heaving_movement_of (e : ℕ) (A P : ℝ) : ∃ w : Wing,
    Wing.create (plates e) ⟨0, 0, 0⟩ ⟨0, 1, 0⟩ false ⟨1, 0, 0⟩ 1 "uniform" = .ok w ∧ w.spec.numChordwisePanels = 1 ∧
    ∀ (a : Airplane) (n : ℕ) (_ : 0 < n) (dt : ℝ) (base : OperatingPoint) (only : Bool),
    let am : AirplaneMovement := { base := a, wingMovements := [heave w A P] }
    let om : OperatingPointMovement := { base := base }
    movementMaxPeriod [am] om = .ok (max 0 P) ∧
    ∃ mv p, Movement.create [am] om (some n) none none (some dt) = .ok mv ∧ UnsteadyProblem.create mv only = .ok p ∧
      HeavingPlate p n dt (max 0 P) (fun k => (oscillatingSinspace A P 0 n dt).getD k 0)
        { density := base.density, velocity := base.velocity, alpha := base.alpha, beta := base.beta } ∧
      p.onlyFinalResults = only := by
  obtain ⟨w, hw, hp, hs, hh⟩ := heave_proper e A P
  refine ⟨w, hw, (strip_panels e 0 hw).2.2.1, ?_⟩
  intro a n hn dt base only am om
  obtain ⟨mv, e1, e2, e3⟩ := C31_movement_accepted [am] om (by simp [am]) (by
      intro am' ham' wm hwm
      simp at ham'; subst ham'
      simp [am] at hwm; subst hwm
      exact ⟨_, hh⟩) (by
      intro am' ham'
      simp at ham'; subst ham'
      exact ⟨Or.inl rfl, Or.inl rfl, Or.inl rfl⟩) (Or.inl rfl) n hn dt
  have hsec := hp.sections.1
  have hP : movementMaxPeriod [am] om = .ok (max 0 P) := by
    have hw' : (heave w A P).maxPeriod = .ok (max 0 P) := by
      have hsec' : w.sections = withChordwise ⟨1, 0, 0⟩ (plates e) := hsec
      simp [WingMovement.maxPeriod, hsec', withChordwise, plates, pyMax, WingCrossSectionMovement.maxPeriod,
        bind, Except.bind, pure, Except.pure, heave, plateMovement]
    have ha' : am.maxPeriod = .ok (max 0 P) := by
      simp [AirplaneMovement.maxPeriod, am, hw', pyMax, bind, Except.bind, pure, Except.pure]
    simp [movementMaxPeriod, ha', pyMax, bind, Except.bind, pure, Except.pure, OperatingPointMovement.maxPeriod, om]
  obtain ⟨p, u1, u2, u3, u4, u5, u6⟩ := C31_steady_problems [am] om _ _ _ _ mv e1 (max 0 P) hP only
  obtain ⟨_, _, _, g1, g2, _, _⟩ := Movement.create_ok e1
  have hstep : ∀ k < n, ∃ a w, p.airplanesAt k = [a] ∧ a.wings = [w] ∧ w.numSpanwisePanels = 1 ∧
      w.panels = [[squareAt ((oscillatingSinspace A P 0 n dt).getD k 0)]] ∧ w.spec.numChordwisePanels = 1 ∧
      a.sRef = 1 ∧ a.bRef = 1 ∧ a.cRef = 1 := by
    intro k hk
    obtain ⟨sp, s1, s2, s3⟩ := u6 k (by omega)
    have hf := mapM_forall₂.mp g1
    obtain ⟨hist, tail, hgen, ht, hmv⟩ := List.forall₂_cons_left_iff.mp hf
    obtain rfl := List.forall₂_nil_left_iff.mp ht
    rw [hmv] at s2
    obtain ⟨ak, tail', hak, ht', hsp⟩ := List.forall₂_cons_left_iff.mp s2
    obtain rfl := List.forall₂_nil_left_iff.mp ht'
    obtain ⟨_, _, _, ws, _, _, _, hws, _, hall⟩ := AirplaneMovement.generate_ok hgen
    obtain ⟨wl, wtail, hwl, hwt, hws'⟩ := List.forall₂_cons_left_iff.mp (mapM_forall₂.mp hws)
    obtain rfl := List.forall₂_nil_left_iff.mp hwt
    subst hws'
    rw [e2, e3] at hwl
    obtain ⟨wk, w1, w2, w3, w4, w5, w6, w7⟩ := heave_wings e hw hp hs A P n hn dt hwl k hk
    obtain ⟨ak', a1, a2⟩ := hall k (by omega)
    rw [hak] at a1
    obtain rfl := Option.some.inj a1
    simp only [List.filterMap_cons, w1, List.filterMap_nil, Airplane.create, Except.ok.injEq] at a2
    refine ⟨ak, wk, ?_, ?_, w2, w3, w4, ?_, ?_, ?_⟩
    · simp [UnsteadyProblem.airplanesAt, s1, hsp]
    · rw [← a2]
    · rw [← a2]; simpa using w5
    · rw [← a2]; simpa using w6
    · rw [← a2]; simpa using w7
  refine ⟨hP, mv, p, e1, u1, ⟨⟨_, _, _, _, _, _, mv, only, _, e1, u1, .inl rfl⟩, by rw [u2, e2], by rw [u3, e3], u4, fun k hk => ⟨?_, ?_⟩, fun k hk => ?_⟩, ?_⟩
  · obtain ⟨sp, s1, s2, s3⟩ := u6 k (by omega)
    have hops := C29_static_operating_point_partial om (Or.inl rfl) (Or.inl rfl) mv.numSteps mv.deltaTime
    rw [hops] at g2
    rw [← Except.ok.inj g2, List.getElem?_replicate, if_pos (by omega)] at s3
    simp only [UnsteadyProblem.operatingPointAt, s1, Option.map_some, Option.getD_some]
    rw [← Option.some.inj s3]
  · obtain ⟨a, wk, h1, h2, h3, h4, h5, h6, _⟩ := hstep k hk
    exact ⟨a, wk, h1, h2, h3, h4, h5, h6⟩
  · obtain ⟨a, wk, h1, h2, h3, h4, h5, h6, h7⟩ := hstep k hk
    rw [h1]
    simpa using h7
  · unfold UnsteadyProblem.create at u1
    obtain ⟨_, _, u1⟩ := bind_ok.mp u1
    obtain ⟨_, _, u1⟩ := bind_ok.mp u1
    rw [pure_ok] at u1
    rw [← u1]

theorem heaving_movement (A P : ℝ) : ∃ w : Wing, w.spec.numChordwisePanels = 1 ∧
    ∀ (a : Airplane) (n : ℕ) (_ : 0 < n) (dt : ℝ) (base : OperatingPoint) (only : Bool),
    let am : AirplaneMovement := { base := a, wingMovements := [heave w A P] }
    let om : OperatingPointMovement := { base := base }
    movementMaxPeriod [am] om = .ok (max 0 P) ∧
    ∃ mv p, Movement.create [am] om (some n) none none (some dt) = .ok mv ∧ UnsteadyProblem.create mv only = .ok p ∧
      HeavingPlate p n dt (max 0 P) (fun k => (oscillatingSinspace A P 0 n dt).getD k 0)
        { density := base.density, velocity := base.velocity, alpha := base.alpha, beta := base.beta } ∧
      p.onlyFinalResults = only := by
  obtain ⟨w, _, h⟩ := heaving_movement_of 1 A P
  exact ⟨w, h⟩

theorem heaving_problem (A P : ℝ) (n : ℕ) (hn : 0 < n) (dt density velocity alpha beta : ℝ) (only : Bool) :
    ∃ p, HeavingPlate p n dt (max 0 P) (fun k => (oscillatingSinspace A P 0 n dt).getD k 0)
      { density, velocity, alpha, beta } ∧ p.onlyFinalResults = only := by
  obtain ⟨w, _, h⟩ := heaving_movement A P
  obtain ⟨_, mv, p, _, _, h1, h2⟩ := h { wings := [], xyzRef := 0, weight := 0, sRef := 0, cRef := 0, bRef := 0, numPanels := 0 }
    n hn dt { density, velocity, alpha, beta } only
  exact ⟨p, h1, h2⟩

variable {p : UnsteadyProblem} {n : ℕ} {dt P : ℝ} {z : ℕ → ℝ} {op : OperatingPoint}

namespace HeavingPlate

theorem refs (h : HeavingPlate p n dt P z op) {k : ℕ} (hk : k < n) :
    panelRefs (p.airplanesAt k) = [⟨0, 0, 0, 0⟩] ∧
      panelAt (p.airplanesAt k) ⟨0, 0, 0, 0⟩ = some (squareAt (z k)) := by
  obtain ⟨_, a, w, h1, h2, h3, h4, h5, h6⟩ := h.step k hk
  constructor
  · simp [panelRefs, airplaneRefs, h1, h2, h4, List.zipIdx]
  · simp [panelAt, wingAt, h1, h2, h4]

theorem wing (h : HeavingPlate p n dt P z op) {k : ℕ} (hk : k < n) :
    ∃ w, p.wing? ⟨k, 0, 0⟩ = some w ∧ w.numSpanwisePanels = 1 ∧ w.spec.numChordwisePanels = 1 := by
  obtain ⟨_, a, w, h1, h2, h3, h4, h5, h6⟩ := h.step k hk
  exact ⟨w, by simp [UnsteadyProblem.wing?, h1, h2], h3, h5⟩

theorem chordwise (h : HeavingPlate p n dt P z op) : p.Chordwise := by
  intro w wing hw
  by_cases hk : w.step < n
  · obtain ⟨_, a, W, h1, h2, h3, h4, h5, h6⟩ := h.step _ hk
    unfold UnsteadyProblem.wing? at hw
    rw [h1] at hw
    rw [Option.bind_eq_some_iff] at hw
    obtain ⟨b, hb, hw⟩ := hw
    have hb' := List.mem_of_getElem? hb
    simp only [List.mem_singleton] at hb'
    subst hb'
    rw [h2] at hw
    have := List.mem_of_getElem? hw
    simp only [List.mem_singleton] at this
    subst this
    omega
  · have hl := h.made.regular.steps
    have : p.airplanesAt w.step = [] := by
      have hnone : p.steadyProblems[w.step]? = none := by
        rw [List.getElem?_eq_none_iff, hl, h.steps]; omega
      simp [UnsteadyProblem.airplanesAt, hnone]
    simp [UnsteadyProblem.wing?, this] at hw

/-- Every wake row is there. -/
theorem place (h : HeavingPlate p n dt P z op) {k i : ℕ} (hk : k < n) (hi : i < k) :
    (⟨0, 0, i, 0⟩ : WakePlace) ∈ wakePlaces p k := by
  obtain ⟨w, h1, h2, _⟩ := h.wing hk
  exact mem_wakePlaces.mpr ⟨hi, w, h1, by simp [h2]⟩

theorem trailing (h : HeavingPlate p n dt P z op) {k i : ℕ} (hk : k < n) :
    IsTrailing p k ⟨0, 0, i, 0⟩ ⟨0, 0, 0, 0⟩ := by
  obtain ⟨_, a, w, h1, h2, h3, h4, h5, h6⟩ := h.step k hk
  refine ⟨rfl, rfl, rfl, by rw [(h.refs hk).2]; rfl, ?_⟩
  simp [panelAt, wingAt, h1, h2, h4]

/-- The plate moves vertically, as a whole. -/
theorem translates (h : HeavingPlate p n dt P z op) {j : ℕ} (hj : j + 1 < n) :
    p.Translates j 0 0 ⟨0, 0, z (j + 1) - z j⟩ := by
  obtain ⟨o1, a, w, h1, h2, h3, h4, h5, h6⟩ := h.step j (by omega)
  obtain ⟨o2, a', w', h1', h2', h3', h4', h5', h6'⟩ := h.step (j + 1) hj
  refine ⟨?_, by rw [o1, o2]⟩
  intro row col q q' hq hq'
  simp only [panelAt, wingAt, h1, h2, h4, h1', h2', h4', List.getElem?_cons_zero, Option.bind_some] at hq hq'
  have hr : row = 0 := by
    by_contra hne
    obtain ⟨m, rfl⟩ := Nat.exists_eq_succ_of_ne_zero hne
    simp at hq
  subst hr
  have hc : col = 0 := by
    by_contra hne
    obtain ⟨m, rfl⟩ := Nat.exists_eq_succ_of_ne_zero hne
    simp at hq
  subst hc
  simp at hq hq'
  subst hq
  subst hq'
  refine ⟨?_, ?_, ?_, ?_⟩ <;> ext <;> simp [squareAt]

/-- The unsteady solver solves the heaving plate, from any state the problem's objects can be in. -/
theorem run (h : HeavingPlate p n dt P z op) (hdt : 0 ≤ dt) (hv : 0 ≤ op.velocity)
    (hd : |op.freestreamDirection.y| ≤ op.freestreamDirection.x) {s : UnsteadySolver} (hs : Reached p s)
    (pres sl : Bool) : ∃ s', s.run pres sl = .ok s' := by
  refine run_solvable h.made.regular (hs.good h.made.regular) ?_ pres sl
  intro k hk b hb
  rw [h.steps] at hk
  obtain ⟨hr, hp⟩ := h.refs hk
  rw [hr] at hb
  obtain ⟨b0, rfl⟩ := List.length_eq_one_iff.mp hb
  have hg := geometryOf_eq hp
  obtain ⟨g1, g2, g3⟩ := squareAt_points (z k)
  have hte : (squareAt (z k)).isTrailingEdge = true := rfl
  have b1 : backLeftVertex (p.airplanesAt k) op.freestreamVelocity dt ⟨0, 0, 0, 0⟩
      = ⟨5 / 4, 0, z k⟩ + (0.25 : ℝ) • (dt • op.freestreamVelocity) := by
    unfold backLeftVertex
    simp only [hg, hte, if_true, g3]
    ext <;> simp [squareAt]
    norm_num
  have b2 : backRightVertex (p.airplanesAt k) op.freestreamVelocity dt ⟨0, 0, 0, 0⟩
      = ⟨5 / 4, 1, z k⟩ + (0.25 : ℝ) • (dt • op.freestreamVelocity) := by
    unfold backRightVertex
    simp only [hg, hte, if_true, g2]
    ext <;> simp [squareAt]
    norm_num
  have hm : wingMatrix p k = [[(unitVelocity (ringLegs
      (⟨5 / 4, 1, z k⟩ + (0.25 : ℝ) • (dt • op.freestreamVelocity)) ⟨1 / 4, 1, z k⟩ ⟨1 / 4, 0, z k⟩
      (⟨5 / 4, 0, z k⟩ + (0.25 : ℝ) • (dt • op.freestreamVelocity))) ⟨3 / 4, 1 / 2, z k⟩).dot ⟨0, 0, 1⟩]] := by
    unfold wingMatrix unitRing boundRing panelRing
    rw [hr, (h.step k hk).1, h.dt]
    simp only [List.map_cons, List.map_nil, hg, g1, g2, g3, squareAt_normal, RingVortex.mk', b1, b2]
  rw [hm]
  refine ⟨_, linalgSolve_one _ _ (squareAt_ring_pos (z k) _ ?_).ne'⟩
  have hc : 0 ≤ 0.25 * (dt * op.velocity) := by positivity
  simp only [OperatingPoint.freestreamVelocity, V3.smul_x, V3.smul_y]
  have e : ∀ t : ℝ, (0.25 : ℝ) * (dt * (op.velocity * t)) = 0.25 * (dt * op.velocity) * t := by intro t; ring
  rw [e, e, abs_mul, abs_of_nonneg hc]
  exact mul_le_mul_of_nonneg_left hd hc

theorem create (h : HeavingPlate p n dt P z op) (hn : 0 < n) : ∃ s, UnsteadySolver.create p = .ok s := by
  have hl := h.made.regular.steps
  rw [h.steps] at hl
  unfold UnsteadySolver.create
  cases hsp : p.steadyProblems with
  | nil => rw [hsp] at hl; simp at hl; omega
  | cons a l => exact ⟨_, rfl⟩

end HeavingPlate

end Ptera
