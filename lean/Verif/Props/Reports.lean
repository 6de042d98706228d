import Verif.Props.Animations
import Verif.Props.SteadyRuns

/-!
# C51 and C59: printed and plotted loads
-/

namespace Ptera

open UnsteadySolver

/-! ## Signs and rounding -/

theorem rounded_near (force moment cf cm : V3) :
    ∀ x ∈ (Report.of force moment cf cm).rounded.labelled force moment cf cm, |x.1 - x.2| ≤ 0.0005 := by
  have h : ∀ v : ℝ, |roundTo 3 v - v| ≤ 0.0005 := fun v => by
    have := roundTo_near 3 v
    norm_num at this ⊢
    exact this
  intro x hx
  simp only [Report.labelled, Report.rounded, Report.of, List.mem_cons, List.not_mem_nil, or_false] at hx
  rcases hx with rfl | rfl | rfl | rfl | rfl | rfl | rfl | rfl | rfl | rfl | rfl | rfl <;> exact h _

theorem same_div (x : ℝ) {k : ℝ} (hk : 0 < k) : 0 ≤ x ∧ 0 ≤ x / k ∨ x ≤ 0 ∧ x / k ≤ 0 := by
  rcases le_total 0 x with h | h
  · exact Or.inl ⟨h, by positivity⟩
  · exact Or.inr ⟨h, div_nonpos_of_nonpos_of_nonneg h hk.le⟩

theorem rounded_same (x : ℝ) {k : ℝ} (hk : 0 < k) : 0 ≤ roundTo 3 x * roundTo 3 (x / k) :=
  roundTo_same_sign 3 (same_div x hk)

theorem rounded_opposite (x : ℝ) {k : ℝ} (hk : 0 < k) : roundTo 3 x * roundTo 3 (-x / k) ≤ 0 := by
  rw [neg_div, roundTo_neg]
  have := rounded_same x hk
  linarith

theorem rounded_signs (f m : V3) {q S b c : ℝ} (hq : 0 < q) (hS : 0 < S) (hb : 0 < b) (hc : 0 < c) :
    (Report.of f m ⟨-f.x / (q * S), f.y / (q * S), -f.z / (q * S)⟩
      ⟨m.x / (q * S * b), m.y / (q * S * c), m.z / (q * S * b)⟩).rounded.SignsPartial :=
  ⟨rounded_same _ (by positivity), rounded_same _ (by positivity), rounded_same _ (by positivity),
    rounded_same _ (by positivity), rounded_opposite _ (by positivity), rounded_opposite _ (by positivity)⟩

theorem print_ok (airplanes : List Airplane) (loads : List AirplaneLoads) (h : loads.length = airplanes.length) :
    ∃ reports, printSteadyResults airplanes loads = .ok reports ∧ reports.length = airplanes.length ∧
      ∀ i < airplanes.length, ∃ L, loads[i]? = some L ∧ reports[i]? = some L.report.rounded := by
  obtain ⟨reports, hr⟩ := mapM_exists (l := List.range airplanes.length) (f := fun i =>
    match loads[i]? with
    | none => Except.error Err.typeError
    | some l => .ok l.report.rounded) (by
      intro i hi
      rw [List.mem_range] at hi
      rw [List.getElem?_eq_getElem (by omega)]
      exact ⟨_, rfl⟩)
  obtain ⟨h1, h2⟩ := mapM_range hr
  refine ⟨reports, hr, h1, ?_⟩
  intro i hi
  obtain ⟨r, e1, e2⟩ := h2 i hi
  rw [List.getElem?_eq_getElem (by omega)] at e2
  exact ⟨loads[i], List.getElem?_eq_getElem (by omega), by rw [e1]; exact congrArg some (Except.ok.inj e2).symm⟩

/-! ## C51: steady results -/

/-- C51 (horseshoe solver), as far as it holds: the results of a finished run are printed, one report per airplane with
every quantity within 0.0005 of the computed one. Side force and moments agree in sign with their coefficients; the
induced drag and the lift never do. -/
theorem C51_horseshoe_partial (problem : SteadyProblem) (hmade : ∀ a ∈ problem.airplanes, a.Made) (heap : PanelHeap)
    (loads : List AirplaneLoads) (s : HorseshoeSolver)
    (h : (HorseshoeSolver.create problem heap loads).run = .ok s) (hdensity : 0 < problem.operatingPoint.density)
    (hvelocity : problem.operatingPoint.velocity ≠ 0)
    (hrefs : ∀ a ∈ problem.airplanes, 0 < a.sRef ∧ 0 < a.bRef ∧ 0 < a.cRef) :
    ∃ reports, printSteadyResults problem.airplanes s.loads = .ok reports ∧
      reports.length = problem.airplanes.length ∧
      ∀ i < problem.airplanes.length, ∃ L r, s.loads[i]? = some L ∧ reports[i]? = some r ∧
        (∀ x ∈ r.labelled L.forceWind L.momentWind L.forceCoefficients L.momentCoefficients, |x.1 - x.2| ≤ 0.0005) ∧
        r.SignsPartial := by
  by_cases hne : problem.airplanes = []
  · have hl : printSteadyResults problem.airplanes s.loads = .ok [] := by rw [hne]; rfl
    exact ⟨[], hl, by simp [hne], by simp [hne]⟩
  have hpos := List.length_pos_iff.mpr hne
  have hlen := (C37_horseshoe problem hmade heap loads s h 0 _ (List.getElem?_eq_getElem hpos)).1
  obtain ⟨reports, h1, h2, h3⟩ := print_ok problem.airplanes s.loads hlen
  refine ⟨reports, h1, h2, ?_⟩
  intro i hi
  obtain ⟨_, L, P, e1, _, _, _, e5, e6⟩ :=
    C37_horseshoe problem hmade heap loads s h i _ (List.getElem?_eq_getElem hi)
  obtain ⟨L', e7, e8⟩ := h3 i hi
  rw [e1] at e7
  cases e7
  refine ⟨L, _, e1, e8, rounded_near _ _ _ _, ?_⟩
  obtain ⟨r1, r2, r3⟩ := hrefs _ (List.getElem_mem hi)
  have hq : 0 < 0.5 * problem.operatingPoint.density * problem.operatingPoint.velocity ^ 2 := by positivity
  have := rounded_signs L.forceWind L.momentWind hq r1 r2 r3
  unfold AirplaneLoads.report
  rw [e5, e6]
  exact this

/-- C51 (ring solver): as for the horseshoe solver. -/
theorem C51_ring_partial (problem : SteadyProblem) (hmade : ∀ a ∈ problem.airplanes, a.Made) (heap : PanelHeap)
    (loads : List AirplaneLoads) (s : RingSolver)
    (h : (RingSolver.create problem heap loads).run = .ok s) (hdensity : 0 < problem.operatingPoint.density)
    (hvelocity : problem.operatingPoint.velocity ≠ 0)
    (hrefs : ∀ a ∈ problem.airplanes, 0 < a.sRef ∧ 0 < a.bRef ∧ 0 < a.cRef) :
    ∃ reports, printSteadyResults problem.airplanes s.loads = .ok reports ∧
      reports.length = problem.airplanes.length ∧
      ∀ i < problem.airplanes.length, ∃ L r, s.loads[i]? = some L ∧ reports[i]? = some r ∧
        (∀ x ∈ r.labelled L.forceWind L.momentWind L.forceCoefficients L.momentCoefficients, |x.1 - x.2| ≤ 0.0005) ∧
        r.SignsPartial := by
  by_cases hne : problem.airplanes = []
  · have hl : printSteadyResults problem.airplanes s.loads = .ok [] := by rw [hne]; rfl
    exact ⟨[], hl, by simp [hne], by simp [hne]⟩
  have hpos := List.length_pos_iff.mpr hne
  have hlen := (C37_ring problem hmade heap loads s h 0 _ (List.getElem?_eq_getElem hpos)).1
  obtain ⟨reports, h1, h2, h3⟩ := print_ok problem.airplanes s.loads hlen
  refine ⟨reports, h1, h2, ?_⟩
  intro i hi
  obtain ⟨_, L, P, e1, _, _, _, e5, e6⟩ :=
    C37_ring problem hmade heap loads s h i _ (List.getElem?_eq_getElem hi)
  obtain ⟨L', e7, e8⟩ := h3 i hi
  rw [e1] at e7
  cases e7
  refine ⟨L, _, e1, e8, rounded_near _ _ _ _, ?_⟩
  obtain ⟨r1, r2, r3⟩ := hrefs _ (List.getElem_mem hi)
  have hq : 0 < 0.5 * problem.operatingPoint.density * problem.operatingPoint.velocity ^ 2 := by positivity
  have := rounded_signs L.forceWind L.momentWind hq r1 r2 r3
  unfold AirplaneLoads.report
  rw [e5, e6]
  exact this

/-! ## C51: plots and unsteady results -/

variable {p : UnsteadyProblem} {s s' : UnsteadySolver} {pres sl : Bool}

/-- C51 (plots), as far as it holds: at every plotted step the signs of side force and moments are exactly those of
their coefficients, and the signs of induced drag and lift are exactly opposite to those of theirs. -/
theorem C51_plots_partial (hp : p.Made) (hs : Reached p s) (h : s.run pres sl = .ok s') (k : ℕ) (hk : k < p.numSteps)
    (hfirst : p.firstResultsStep ≤ (k : ℤ)) (hdensity : 0 < (p.operatingPointAt k).density)
    (hvelocity : (p.operatingPointAt k).velocity ≠ 0) (i : ℕ) (a : Airplane) (ha : (p.airplanesAt k)[i]? = some a)
    (hrefs : 0 < a.sRef ∧ 0 < a.bRef ∧ 0 < a.cRef) :
    ∃ L, (s'.loads k)[i]? = some L ∧
      SignType.sign L.report.sideForce = SignType.sign L.report.cy ∧
      SignType.sign L.report.rollingMoment = SignType.sign L.report.cRoll ∧
      SignType.sign L.report.pitchingMoment = SignType.sign L.report.cPitch ∧
      SignType.sign L.report.yawingMoment = SignType.sign L.report.cYaw ∧
      SignType.sign L.report.inducedDrag = SignType.sign (-L.report.cdi) ∧
      SignType.sign L.report.lift = SignType.sign (-L.report.cl) := by
  obtain ⟨L, P, e1, _, _, _, e5, e6⟩ := C37_unsteady hp hs h k hk hfirst i a ha
  obtain ⟨r1, r2, r3⟩ := hrefs
  have hq : 0 < 0.5 * (p.operatingPointAt k).density * (p.operatingPointAt k).velocity ^ 2 := by positivity
  have key : ∀ (x : ℝ) {d : ℝ}, 0 < d → SignType.sign x = SignType.sign (x / d) := by
    intro x d hd
    rw [div_eq_mul_inv, sign_mul, sign_pos (inv_pos.mpr hd), mul_one]
  have key' : ∀ (x : ℝ) {d : ℝ}, 0 < d → SignType.sign x = SignType.sign (-(-x / d)) := by
    intro x d hd
    rw [neg_div, neg_neg]
    exact key x hd
  refine ⟨L, e1, ?_⟩
  unfold AirplaneLoads.report Report.of
  rw [e5, e6]
  exact ⟨key _ (by positivity), key _ (by positivity), key _ (by positivity), key _ (by positivity),
    key' _ (by positivity), key' _ (by positivity)⟩

theorem print_unsteady_ok (lists : ResultLists) (n : ℕ) (h : ∀ q ∈ loadQuantities, n ≤ (q.1 lists).length) :
    ∃ reports, (List.range n).mapM (unsteadyReport lists) = .ok reports ∧ reports.length = n ∧
      ∀ i < n, ∃ f m cf cm, lists.forces[i]? = some f ∧ lists.moments[i]? = some m ∧
        lists.forceCoefficients[i]? = some cf ∧ lists.momentCoefficients[i]? = some cm ∧
        reports[i]? = some (Report.of f m cf cm).rounded := by
  have h1 : n ≤ lists.forces.length := h _ (List.mem_cons_self ..)
  have h2 : n ≤ lists.forceCoefficients.length := h (ResultLists.forceCoefficients, AirplaneLoads.forceCoefficients)
    (by simp [loadQuantities])
  have h3 : n ≤ lists.moments.length := h (ResultLists.moments, AirplaneLoads.momentWind) (by simp [loadQuantities])
  have h4 : n ≤ lists.momentCoefficients.length := h (ResultLists.momentCoefficients, AirplaneLoads.momentCoefficients)
    (by simp [loadQuantities])
  have key : ∀ i (hi : i < n), unsteadyReport lists i = .ok (Report.of lists.forces[i] lists.moments[i]
      lists.forceCoefficients[i] lists.momentCoefficients[i]).rounded := by
    intro i hi
    unfold unsteadyReport
    rw [List.getElem?_eq_getElem (by omega), List.getElem?_eq_getElem (by omega), List.getElem?_eq_getElem (by omega),
      List.getElem?_eq_getElem (by omega)]
  obtain ⟨reports, hr⟩ := mapM_exists (l := List.range n) (f := unsteadyReport lists)
    (fun i hi => ⟨_, key i (by simpa using hi)⟩)
  obtain ⟨e1, e2⟩ := mapM_range hr
  refine ⟨reports, hr, e1, ?_⟩
  intro i hi
  obtain ⟨r, e3, e4⟩ := e2 i hi
  rw [key i hi] at e4
  exact ⟨_, _, _, _, List.getElem?_eq_getElem _, List.getElem?_eq_getElem _, List.getElem?_eq_getElem _,
    List.getElem?_eq_getElem _, by rw [e3, ← Except.ok.inj e4]⟩

/-- C51 (unsteady results), as far as it holds, for a new problem whose dynamic pressure and references do not change
during the averaged steps: signs as for the steady solvers. -/
theorem C51_unsteady_partial (hp : p.Made) (hc : UnsteadySolver.create p = .ok s) (h : s.run pres sl = .ok s')
    (hdt : 0 < p.deltaTime) (hP : 0 < p.maxPeriod) (i : ℕ) (hi : i < (p.airplanesAt 0).length) (q S B C : ℝ)
    (hq : 0 < q) (hS : 0 < S) (hB : 0 < B) (hC : 0 < C)
    (hqk : ∀ k, p.firstAveragingStep.toNat ≤ k → k < p.numSteps →
      0.5 * (p.operatingPointAt k).density * (p.operatingPointAt k).velocity ^ 2 = q)
    (hrefs : ∀ k a, p.firstAveragingStep.toNat ≤ k → k < p.numSteps → (p.airplanesAt k)[i]? = some a →
      a.sRef = S ∧ a.bRef = B ∧ a.cRef = C) :
    ∃ reports r, printUnsteadyResults s' = .ok reports ∧ reports[i]? = some r ∧ r.SignsPartial := by
  have hs : Reached p s := .fresh hc
  have hprob : s'.problem = p := ((hs.rerun h).good hp.regular).problem
  have hnew : s.finalMean = {} := by
    unfold UnsteadySolver.create at hc
    split at hc
    · simp at hc
    · rw [← Except.ok.inj hc]
  obtain ⟨_, _, hall⟩ := C47_periodic hp hs h hdt hP
  obtain ⟨reports, h1, _, h3⟩ := print_unsteady_ok s'.finalMean (p.airplanesAt 0).length
    (fun q hq => by rw [(hall q hq).1]; omega)
  obtain ⟨f, m, cf, cm, e1, e2, e3, e4, e5⟩ := h3 i hi
  obtain ⟨f', cf', e6, e7, e8⟩ := C47_coefficients hp hs h hdt hP i hi q S hqk (fun k a k1 k2 ha => (hrefs k a k1 k2 ha).1)
  obtain ⟨m', cm', e9, e10, e11⟩ := C47_moment_coefficients hp hs h hdt hP i hi q S B C hqk hrefs
  rw [hnew] at e6 e7 e9 e10
  simp only [List.length_nil, Nat.zero_add] at e6 e7 e9 e10
  rw [e1] at e6; rw [e3] at e7; rw [e2] at e9; rw [e4] at e10
  cases e6; cases e7; cases e9; cases e10
  refine ⟨reports, _, by unfold printUnsteadyResults; rw [hprob]; exact h1, e5, ?_⟩
  rw [e8, e11]
  exact rounded_signs _ _ hq hS hB hC

/-- The hypotheses of `C51_plots_partial` and `C51_unsteady_partial` are met by the heaving plate. -/
example (A density velocity : ℝ) (hd : 0 < density) (hv : 0 < velocity) (pres sl : Bool) :
    ∃ (p : UnsteadyProblem) (s s' : UnsteadySolver), p.Made ∧ UnsteadySolver.create p = .ok s ∧
      s.run pres sl = .ok s' ∧ 0 < p.deltaTime ∧ 0 < p.maxPeriod ∧ 0 < (p.airplanesAt 0).length ∧
      (∀ k < p.numSteps, (p.operatingPointAt k).density = density ∧ (p.operatingPointAt k).velocity = velocity) ∧
      (∀ k a, k < p.numSteps → a ∈ p.airplanesAt k → a.sRef = 1 ∧ a.bRef = 1 ∧ a.cRef = 1) ∧
      ∃ reports r, printUnsteadyResults s' = .ok reports ∧ reports[0]? = some r ∧ r.SignsPartial := by
  obtain ⟨p, hp, _⟩ := heaving_problem A 1 30 (by norm_num) 0.1 density velocity 5 0 false
  obtain ⟨s, hs⟩ := hp.create (by norm_num)
  obtain ⟨s', h'⟩ := hp.run (by norm_num) hv.le (flies_ahead density velocity 5 (by norm_num)) (.fresh hs) pres sl
  have hdt : 0 < p.deltaTime := by rw [hp.dt]; norm_num
  have hper : 0 < p.maxPeriod := by rw [hp.period]; norm_num
  have h0 : 0 < (p.airplanesAt 0).length := by
    obtain ⟨_, a, w, h1, _⟩ := hp.step 0 (by norm_num)
    rw [h1]; simp
  have hop : ∀ k < p.numSteps, (p.operatingPointAt k).density = density ∧ (p.operatingPointAt k).velocity = velocity := by
    intro k hk
    rw [hp.steps] at hk
    rw [(hp.step k hk).1]
    exact ⟨rfl, rfl⟩
  have href : ∀ k a, k < p.numSteps → a ∈ p.airplanesAt k → a.sRef = 1 ∧ a.bRef = 1 ∧ a.cRef = 1 := by
    intro k a hk ha
    rw [hp.steps] at hk
    refine ⟨?_, hp.references k hk a ha⟩
    obtain ⟨_, b, w, h1, _, _, _, _, h6⟩ := hp.step k hk
    rw [h1, List.mem_singleton] at ha
    rw [ha, h6]
  refine ⟨p, s, s', hp.made, hs, h', hdt, hper, h0, hop, href, ?_⟩
  refine C51_unsteady_partial hp.made hs h' hdt hper 0 h0 (0.5 * density * velocity ^ 2) 1 1 1 (by positivity) one_pos
    one_pos one_pos ?_ ?_
  · intro k _ hk
    obtain ⟨e1, e2⟩ := hop k hk
    rw [e1, e2]
  · intro k a _ hk ha
    exact href k a hk (List.mem_of_getElem? ha)

/-! ## C59: unsteady results can be printed -/

/-- C59, as far as it holds: after any finished run of a problem with a period, the results can be printed; there is one
report per airplane, with every quantity within 0.0005 of the airplane's entry in the lists of final means. -/
theorem C59_periodic_partial (hp : p.Made) (hs : Reached p s) (h : s.run pres sl = .ok s') (hdt : 0 < p.deltaTime)
    (hP : 0 < p.maxPeriod) :
    ∃ reports, printUnsteadyResults s' = .ok reports ∧ reports.length = (p.airplanesAt 0).length ∧
      ∀ i < (p.airplanesAt 0).length, ∃ r f m cf cm, reports[i]? = some r ∧ s'.finalMean.forces[i]? = some f ∧
        s'.finalMean.moments[i]? = some m ∧ s'.finalMean.forceCoefficients[i]? = some cf ∧
        s'.finalMean.momentCoefficients[i]? = some cm ∧
        ∀ x ∈ r.labelled f m cf cm, |x.1 - x.2| ≤ 0.0005 := by
  have hprob : s'.problem = p := ((hs.rerun h).good hp.regular).problem
  obtain ⟨_, _, hall⟩ := C47_periodic hp hs h hdt hP
  obtain ⟨reports, h1, h2, h3⟩ := print_unsteady_ok s'.finalMean (p.airplanesAt 0).length
    (fun q hq => by rw [(hall q hq).1]; omega)
  refine ⟨reports, by unfold printUnsteadyResults; rw [hprob]; exact h1, h2, ?_⟩
  intro i hi
  obtain ⟨f, m, cf, cm, e1, e2, e3, e4, e5⟩ := h3 i hi
  exact ⟨_, f, m, cf, cm, e5, e1, e2, e3, e4, rounded_near _ _ _ _⟩

theorem static_means (hp : p.Made) (hs : Reached p s) (hdt : 0 < p.deltaTime) (hstatic : p.maxPeriod = 0) :
    s.finalMean = {} := by
  induction hs with
  | fresh hc =>
    unfold create at hc
    split at hc
    · cases hc
    · rw [← Except.ok.inj hc]
  | rerun hr hrun ih => rw [(C47_static hp hr hrun hdt hstatic).2.2.1, ih]
  | aborted hr hops hrun ih => rw [aborted_static (hr.good hp.regular).problem hops hrun hstatic, ih]
  | another hr hc ih =>
    unfold create at hc
    split at hc
    · cases hc
    · rw [← Except.ok.inj hc]; exact ih

/-- C59 fails for static problems: after any finished run of one with an airplane, printing the results raises. -/
theorem C59_static_fails (hp : p.Made) (hs : Reached p s) (h : s.run pres sl = .ok s') (hdt : 0 < p.deltaTime)
    (hstatic : p.maxPeriod = 0) (hair : p.airplanesAt 0 ≠ []) : printUnsteadyResults s' = .error .indexError := by
  have hprob : s'.problem = p := ((hs.rerun h).good hp.regular).problem
  obtain ⟨n, hn⟩ : ∃ n, (p.airplanesAt 0).length = n + 1 :=
    ⟨_, (Nat.succ_pred_eq_of_pos (List.length_pos_iff.mpr hair)).symm⟩
  unfold printUnsteadyResults
  rw [hprob, static_means hp (hs.rerun h) hdt hstatic, hn, List.range_succ_eq_map, List.mapM_cons]
  rfl

/-- The hypotheses are met: by the plate at rest. -/
example (density velocity : ℝ) (hv : 0 < velocity) (pres sl : Bool) : ∃ (p : UnsteadyProblem) (s s' : UnsteadySolver),
    p.Made ∧ Reached p s ∧ s.run pres sl = .ok s' ∧ 0 < p.deltaTime ∧ p.maxPeriod = 0 ∧ p.airplanesAt 0 ≠ [] := by
  obtain ⟨p, hp, _⟩ := heaving_problem 0 0 30 (by norm_num) 0.1 density velocity 5 0 false
  obtain ⟨s, hs⟩ := hp.create (by norm_num)
  have hr : Reached p s := .fresh hs
  obtain ⟨s', h'⟩ := hp.run (by norm_num) hv.le (flies_ahead density velocity 5 (by norm_num)) hr pres sl
  refine ⟨p, s, s', hp.made, hr, h', by rw [hp.dt]; norm_num, by rw [hp.period]; norm_num, ?_⟩
  obtain ⟨_, a, w, h1, _⟩ := hp.step 0 (by norm_num)
  rw [h1]
  simp

/-! ## C51 fails -/

/-- C51 fails: the lift printed for a plate in an upwards stream is -1, its lift coefficient 2. -/
theorem C51_lift_fails : ∃ (problem : SteadyProblem) (s : HorseshoeSolver) (r : Report),
    (∀ a ∈ problem.airplanes, a.Made ∧ 0 < a.sRef ∧ 0 < a.bRef ∧ 0 < a.cRef) ∧
    0 < problem.operatingPoint.density ∧ 0 < problem.operatingPoint.velocity ∧
    (HorseshoeSolver.create problem).run = .ok s ∧
    printSteadyResults problem.airplanes s.loads = .ok [r] ∧ r.lift = -1 ∧ r.cl = 2 := by
  set A := plateHorseshoe ⟨0, 0, 1⟩ with hA
  have hApos : 0 < A := plateHorseshoe_pos _ (by simp)
  obtain ⟨a, hmade, hrefs, hpan, hspan, hS, hc, hb, hx⟩ := plate_airplane_of (1 / A)
  set op : OperatingPoint := { density := A, velocity := 1, alpha := 90, beta := 0 } with hop
  have h90 : (90 : ℝ) * Real.pi / 180 = Real.pi / 2 := by ring
  have hdir : op.freestreamDirection = ⟨0, 0, 1⟩ := by
    rw [C01_freestream_direction]
    simp [op, h90]
  have hvel : op.freestreamVelocity = ⟨0, 0, 1⟩ := by
    unfold OperatingPoint.freestreamVelocity
    rw [hdir]
    ext <;> simp [op]
  have hd : |op.freestreamDirection.y| ≤ op.freestreamDirection.x := by rw [hdir]; simp
  obtain ⟨s, hs, hstr⟩ := plate_horseshoe_run op hmade hrefs hpan hspan hd PanelHeap.fresh []
  rw [hvel, hdir, ← hA] at hstr
  have hmade' : ∀ b ∈ (⟨[a], op⟩ : SteadyProblem).airplanes, b.Made := by simpa using hmade
  obtain ⟨hlen, L, P, e1, e2, e3, _, e5, _⟩ := C37_horseshoe ⟨[a], op⟩ hmade' PanelHeap.fresh [] s hs 0 a rfl
  obtain ⟨L', v, u, f1, f2, f3, f4, _⟩ := C35_horseshoe ⟨[a], op⟩ hmade' PanelHeap.fresh [] s hs ⟨0, 0, 0, 0⟩ unitSquare a
    hpan rfl
  obtain ⟨reports, r1, r2, r3⟩ := print_ok [a] s.loads hlen
  obtain ⟨L'', r4, r5⟩ := r3 0 (by simp)
  rw [e1] at r4
  cases r4
  obtain ⟨r, rfl⟩ := List.length_eq_one_iff.mp r2
  simp only [List.getElem?_cons_zero, Option.some.injEq] at r5
  -- the velocity at the bound leg
  have hc' : Counted [a] := counted_of_made (by simpa using hmade)
  obtain ⟨x, _, hxl, hsx⟩ := HorseshoeSolver.run_result (s := HorseshoeSolver.create ⟨[a], op⟩) hc'
    (by simp [HorseshoeSolver.create]) hs
  obtain ⟨g1, g2, g3⟩ := unitSquare_points
  have hgeo := plate_geometry hpan
  have hslots : s.slots = (HorseshoeSolver.create ⟨[a], op⟩).finalSlots := by rw [hsx]; rfl
  have hx' : s.strengths = x := by rw [hsx]; rfl
  have hfs : s.freestreamVelocity = ⟨0, 0, 1⟩ := by
    rw [← hvel, hsx]; rfl
  have hslot : s.slots = [HorseshoeSolver.slotOf [a] ⟨0, 0, 0, 0⟩ ((HorseshoeSolver.create ⟨[a], op⟩).panelVortex ⟨0, 0, 0, 0⟩)] := by
    rw [hslots]
    unfold HorseshoeSolver.finalSlots
    simp only [HorseshoeSolver.create, hrefs, List.map_cons, List.map_nil]
  have hcentre : (1 / 2 : ℝ) • (unitSquare.frontRightVortexVertex + unitSquare.frontLeftVortexVertex)
      = ⟨1 / 4, 1 / 2, 0⟩ := by
    rw [g2, g3]
    ext <;> simp
    all_goals norm_num
  have hunit : (HorseshoeSolver.unit (HorseshoeSolver.slotOf [a] ⟨0, 0, 0, 0⟩
      ((HorseshoeSolver.create ⟨[a], op⟩).panelVortex ⟨0, 0, 0, 0⟩)) ⟨1 / 4, 1 / 2, 0⟩).z = 0 := by
    have hz : ∀ A B : V3, A.x = 1 / 4 → B.x = 1 / 4 →
        (expandedEntry 0 ⟨A, B, 1, 0⟩ ⟨1 / 4, 1 / 2, 0⟩).z = 0 := by
      intro A B h1 h2
      rw [expandedEntry_eq]
      split
      · rfl
      · simp [h1, h2]
    unfold HorseshoeSolver.unit unitVelocity horseshoeLegs
    simp only [HorseshoeSolver.slotOf, HorseshoeSolver.panelVortex, HorseshoeVortex.mk', LineVortex.mk',
      HorseshoeSolver.create, hgeo, g1, g2, g3, hdir, List.map_cons, List.map_nil, List.sum_cons, List.sum_nil, add_zero,
      V3.add_z]
    rw [hz _ _ (by simp) rfl, hz _ _ rfl rfl, hz _ _ rfl (by simp)]
    norm_num
  have hu : u.z = 1 := by
    rw [HorseshoeSolver.velocity_eq s _ (by rw [hx', hslots, hxl]), hcentre, hslot, hstr, hfs] at f3
    simp only [List.map_cons, List.map_nil, List.zipWith_cons_cons, List.zipWith_nil_left, List.sum_cons, List.sum_nil,
      add_zero, List.cons.injEq, and_true] at f3
    rw [← f3, V3.add_z, V3.smul_z, hunit]
    norm_num
  have hv : v.strength = -1 / A := by
    have := (C38_horseshoe ⟨[a], op⟩ hmade' PanelHeap.fresh [] s hs).2.2 0 _ (by rw [hslot]; rfl)
    obtain ⟨_, _, v', Γ, _, _, k1, k2, k3⟩ := this
    have hk : (s.heap ⟨0, 0, 0, 0⟩).horseshoe = some v' := k1
    rw [f2] at hk
    cases hk
    rw [hstr] at k2
    simp only [List.getElem?_cons_zero, Option.some.injEq] at k2
    rw [k3.2.2.2.2.2.2.2.2.2.2.2.2.1, ← k2]
  have hrot : ∀ F : V3, (op.rotationWindToGeometry.transpose.mulVec F).z = F.x := by
    intro F
    simp [OperatingPoint.rotationWindToGeometry, OperatingPoint.axesFlip, OperatingPoint.alphaRotation,
      OperatingPoint.betaRotation, M3.mul, M3.transpose, M3.mulVec, M3.one, V3.dot, radians, op, h90]
  have hlift : L.forceWind.z = -1 := by
    have hmem : (⟨0, 0, 0, 0⟩ : PanelRef) ∈ (panelRefs [a]).filter fun r => r.airplane = 0 := by simp [hrefs]
    obtain ⟨k1, k2, _⟩ := e2 _ hmem
    rw [f1] at k1
    cases k1
    rw [e3]
    simp only [hrefs]
    have hF : ((P ⟨0, 0, 0, 0⟩).forceWind).z = -1 := by
      rw [k2, hrot, f4, g2, g3, hv]
      simp [kuttaJoukowski, hu, op]
      field_simp
    simp [hF]
  refine ⟨⟨[a], op⟩, s, r, ?_, hApos, by simp [op], hs, r1, ?_, ?_⟩
  · intro b hb
    rw [List.mem_singleton] at hb
    subst hb
    exact ⟨hmade, by rw [hS]; positivity, by rw [hb]; norm_num, by rw [hc]; norm_num⟩
  · rw [r5]
    simp only [AirplaneLoads.report, Report.of, Report.rounded, hlift]
    have := roundTo_int 3 (-1)
    push_cast at this
    exact this
  · rw [r5]
    simp only [AirplaneLoads.report, Report.of, Report.rounded, e5, hlift, hS]
    have e : -(-1 : ℝ) / (0.5 * op.density * op.velocity ^ 2 * (1 / A)) = ((2 : ℤ) : ℝ) := by
      simp only [op]
      field_simp
      norm_num
    rw [e, roundTo_int]
    norm_num

end Ptera
