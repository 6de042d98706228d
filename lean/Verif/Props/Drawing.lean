import Verif.Props.Animations
import Verif.Props.Streamlines
import Verif.Props.Iterations
import Verif.Props.SteadyLoads
import Verif.Props.UnsteadyExample
import Verif.Spec.SteadyResults

/-!
# Property C75: pictures

Drawing any solver after a run shows its panels, coloured by the panels' own coefficients, the wake of the last step and
the streamlines.
-/

namespace Ptera

open UnsteadySolver

theorem streamlines_unique {v : V3 → V3} {seeds : List V3} {n : ℕ} {dt : ℝ} {rows rows' : List (List V3)}
    (h : IsStreamlines v seeds n dt rows) (h' : IsStreamlines v seeds n dt rows') : rows = rows' := by
  have key : ∀ k, k ≤ n → rows[k]? = rows'[k]? := by
    intro k
    induction k with
    | zero => intro _; rw [h.first, h'.first]
    | succ k ih =>
      intro hk
      have e := ih (by omega)
      have hl : k < rows.length := by rw [h.length]; omega
      have e1 := List.getElem?_eq_getElem hl
      rw [h.next k _ (by omega) e1, h'.next k _ (by omega) (e ▸ e1)]
  apply List.ext_getElem?
  intro k
  by_cases hk : k ≤ n
  · exact key k hk
  · rw [List.getElem?_eq_none (by rw [h.length]; omega), List.getElem?_eq_none (by rw [h'.length]; omega)]

theorem segments_of {v : V3 → V3} {airplanes : List Airplane} {rows : List (List V3)}
    (h : IsStreamlines v (trailingEdgePoints airplanes) 25 (1 / 50) rows) (P : Picture)
    (hP : P.lines = streamlineSegments rows) : P.Streamlines airplanes v := by
  refine ⟨rows, h, ?_⟩
  have e : rows = calculateStreamlines v (trailingEdgePoints airplanes) 25 (1 / 50) :=
    streamlines_unique h (streamlines_are _ _ _ _)
  intro a b
  rw [hP, e, C54_drawn]
  constructor
  · rintro ⟨k, j, row, next, -, h1, h2, h3, h4⟩
    exact ⟨k, j, row, next, h1, h2, h3, h4⟩
  · rintro ⟨k, j, row, next, h1, h2, h3, h4⟩
    refine ⟨k, j, row, next, ?_, h1, h2, h3, h4⟩
    have := (List.getElem?_eq_some_iff.mp h2).1
    rw [← e, h.length] at this
    omega

theorem showsScalars_eq (t : Option String) : showsScalars t = (scalarCoefficient t).isSome := by
  unfold showsScalars scalarCoefficient
  split_ifs <;> simp_all

theorem panelScalar_coefficient {t : Option String} {f : PanelLoads → ℝ} (h : scalarCoefficient t = some f)
    (s : PanelState) : panelScalar (t.getD "") s = [s.loads.map f] := by
  unfold scalarCoefficient at h
  split_ifs at h with h1 h2 h3
  · subst h1; cases h; simp [panelScalar]
  · subst h2; cases h; simp [panelScalar]
  · subst h3; cases h; simp [panelScalar]

theorem picture_scalars {airplanes : List Airplane} {heap : PanelHeap} {t : Option String}
    (hloads : ∀ r ∈ panelRefs airplanes, ∃ L, (heap r).loads = some L)
    (hne : scalarCoefficient t ≠ none → allPanels airplanes ≠ []) :
    ∃ x, pictureScalars airplanes heap t = .ok x ∧ (scalarCoefficient t = none → x = none) ∧
      ∀ f, scalarCoefficient t = some f → ∃ (values : List ℝ) (c : Colors),
        x = some (values.map some, c) ∧ colors (values.map some) = .ok c ∧
        values.length = (allPanels airplanes).length ∧
        ∀ (k : ℕ) p, (allPanels airplanes)[k]? = some p → ∃ r L, (panelRefs airplanes)[k]? = some r ∧
          panelAt airplanes r = some p ∧ (heap r).loads = some L ∧ values[k]? = some (f L) := by
  cases ht : scalarCoefficient t with
  | none =>
    refine ⟨none, ?_, fun _ => rfl, fun f h => (by cases h)⟩
    rw [pictureScalars, showsScalars_eq, ht]
    rfl
  | some f =>
    have hg : getScalars airplanes heap (t.getD "") = (panelRefs airplanes).map fun r => (heap r).loads.map f := by
      rw [getScalars_eq, List.flatMap_congr (g := fun r => [(heap r).loads.map f])
        (fun r _ => panelScalar_coefficient ht (heap r))]
      exact (List.map_eq_flatMap).symm
    obtain ⟨values, hv⟩ := all_some (getScalars airplanes heap (t.getD "")) (by
      rw [hg]
      intro x hx
      obtain ⟨r, hr, rfl⟩ := List.mem_map.mp hx
      obtain ⟨L, hL⟩ := hloads r hr
      exact ⟨f L, by rw [hL]; rfl⟩)
    have hlen : values.length = (allPanels airplanes).length := by
      have h1 := congrArg List.length hv
      have h2 := congrArg List.length (panelRefs_panels airplanes)
      rw [hg] at h1
      simp only [List.length_map] at h1 h2
      omega
    have hvne : values ≠ [] := by
      rintro rfl
      exact hne (by rw [ht]; simp) (List.eq_nil_of_length_eq_zero (by rw [← hlen]; rfl))
    obtain ⟨c, _, _, _, _, hc, _⟩ := C57_limits values hvne
    refine ⟨some (values.map some, c), ?_, fun h => (by cases h), ?_⟩
    · rw [pictureScalars, showsScalars_eq, ht, hv]
      simp only [Option.isSome_some, if_true, hc, Except.map]
    · rintro _ ⟨⟩
      refine ⟨values, c, rfl, hc, hlen, ?_⟩
      intro k p hp
      have h1 := congrArg (·[k]?) (panelRefs_panels airplanes)
      simp only [List.getElem?_map, hp, Option.map_some] at h1
      obtain ⟨r, hr, hrp⟩ := Option.map_eq_some_iff.mp h1
      obtain ⟨L, hL⟩ := hloads r (List.mem_of_getElem? hr)
      refine ⟨r, L, hr, hrp, hL, ?_⟩
      have h2 := congrArg (·[k]?) hv
      rw [hg] at h2
      simp only [List.getElem?_map, hr, hL, Option.map_some] at h2
      obtain ⟨x, hx, hx'⟩ := Option.map_eq_some_iff.mp h2.symm
      rw [hx, Option.some.inj hx']

theorem picture_right {airplanes : List Airplane} {heap : PanelHeap} {t : Option String} {sl : Bool}
    {points : Option (List (List V3))} {wake : Option PolyData}
    (hloads : ∀ r ∈ panelRefs airplanes, ∃ L, (heap r).loads = some L)
    (hne : scalarCoefficient t ≠ none → allPanels airplanes ≠ [])
    {v : V3 → V3} (hpoints : sl = true → ∃ rows, points = some rows ∧
      IsStreamlines v (trailingEdgePoints airplanes) 25 (1 / 50) rows) :
    ∃ P, picture airplanes heap points wake t sl = .ok P ∧ P.Right airplanes (fun r => (heap r).loads) t ∧
      P.wake = wake ∧ (sl = false → P.lines = []) ∧ (sl = true → P.Streamlines airplanes v) := by
  obtain ⟨x, hx, h1, h2⟩ := picture_scalars hloads hne
  cases sl with
  | false =>
    refine ⟨⟨panelSurfaces airplanes, x, wake, []⟩, ?_, ⟨C52_panels _, h1, h2⟩, rfl, fun _ => rfl, fun h => (by cases h)⟩
    simp [picture, hx, pictureLines, bind, Except.bind, pure, Except.pure]
  | true =>
    obtain ⟨rows, rfl, hrows⟩ := hpoints rfl
    refine ⟨⟨panelSurfaces airplanes, x, wake, streamlineSegments rows⟩, ?_, ⟨C52_panels _, h1, h2⟩, rfl,
      fun h => (by cases h), fun _ => segments_of hrows _ rfl⟩
    simp [picture, hx, pictureLines, bind, Except.bind, pure, Except.pure]

theorem HorseshoeSolver.run_airplanes {problem : SteadyProblem} (hmade : ∀ a ∈ problem.airplanes, a.Made)
    {heap : PanelHeap} {loads : List AirplaneLoads} {s : HorseshoeSolver}
    (h : (HorseshoeSolver.create problem heap loads).run = .ok s) : s.airplanes = problem.airplanes := by
  rw [HorseshoeSolver.run_eq _ (counted_of_made hmade) (by simp [HorseshoeSolver.create])] at h
  cases hx : linalgSolve _ _ with
  | error e => rw [hx] at h; simp [Except.map] at h
  | ok x =>
    rw [hx] at h
    simp only [Except.map, Except.ok.injEq] at h
    subst h
    rfl

theorem RingSolver.run_airplanes {problem : SteadyProblem} (hmade : ∀ a ∈ problem.airplanes, a.Made)
    {heap : PanelHeap} {loads : List AirplaneLoads} {s : RingSolver}
    (h : (RingSolver.create problem heap loads).run = .ok s) : s.airplanes = problem.airplanes := by
  rw [RingSolver.run_eq _ (counted_of_made hmade) (by simp [RingSolver.create]) (by simp [RingSolver.create])] at h
  cases hx : linalgSolve _ _ with
  | error e => rw [hx] at h; simp [Except.map] at h
  | ok x =>
    rw [hx] at h
    simp only [Except.map, Except.ok.injEq] at h
    subst h
    rfl

/-- C75 (steady solvers): after a run of either steady solver, whatever earlier runs of other solvers left on the
panels, the picture can be drawn, in every combination of the options. It shows every panel, coloured by the panel's own
coefficient if one is wanted, the streamlines in the solved flow if they are wanted, and no wake. (With a coefficient
there must be at least one panel.) -/
theorem C75_steady (problem : SteadyProblem) (hmade : ∀ a ∈ problem.airplanes, a.Made) (heap : PanelHeap)
    (loads : List AirplaneLoads) (scalarType : Option String) (showStreamlines showWake : Bool)
    (hne : scalarCoefficient scalarType ≠ none → allPanels problem.airplanes ≠ []) :
    (∀ s, (HorseshoeSolver.create problem heap loads).run = .ok s →
      ∃ P, s.draw scalarType showStreamlines showWake = .ok P ∧
        P.Right problem.airplanes s.results.loads scalarType ∧ P.wake = none ∧
        (showStreamlines = false → P.lines = []) ∧
        (showStreamlines = true → P.Streamlines problem.airplanes s.results.velocity)) ∧
    (∀ s, (RingSolver.create problem heap loads).run = .ok s →
      ∃ P, s.draw scalarType showStreamlines showWake = .ok P ∧
        P.Right problem.airplanes s.results.loads scalarType ∧ P.wake = none ∧
        (showStreamlines = false → P.lines = []) ∧
        (showStreamlines = true → P.Streamlines problem.airplanes s.results.velocity)) := by
  have hA : ∀ r ∈ panelRefs problem.airplanes, ∃ a, problem.airplanes[r.airplane]? = some a := by
    intro r hr
    obtain ⟨q, hq⟩ := (mem_panelRefs _ _).mp hr
    obtain ⟨a, w, ha, _, _⟩ := panelAt_cell hq
    exact ⟨a, ha⟩
  constructor
  · intro s h
    have hair : s.airplanes = problem.airplanes := HorseshoeSolver.run_airplanes hmade h
    have hl : ∀ r ∈ panelRefs problem.airplanes, ∃ L, (s.heap r).loads = some L := by
      intro r hr
      obtain ⟨a, ha⟩ := hA r hr
      obtain ⟨-, _, P, -, hP, -⟩ := C37_horseshoe problem hmade heap loads s h _ a ha
      exact ⟨P r, (hP r (List.mem_filter.mpr ⟨hr, by simp⟩)).1⟩
    rw [HorseshoeSolver.draw, hair]
    exact picture_right hl hne fun _ => (C54_steady problem hmade heap loads).1 s h
  · intro s h
    have hair : s.airplanes = problem.airplanes := RingSolver.run_airplanes hmade h
    have hl : ∀ r ∈ panelRefs problem.airplanes, ∃ L, (s.heap r).loads = some L := by
      intro r hr
      obtain ⟨a, ha⟩ := hA r hr
      obtain ⟨-, _, P, -, hP, -⟩ := C37_ring problem hmade heap loads s h _ a ha
      exact ⟨P r, (hP r (List.mem_filter.mpr ⟨hr, by simp⟩)).1⟩
    rw [RingSolver.draw, hair]
    exact picture_right hl hne fun _ => (C54_steady problem hmade heap loads).2 s h

/-- C75 (unsteady solver): after a run, the first or a later one, the picture can be drawn, with streamlines if the run
was asked to compute them. It shows the last step: every panel, coloured by the panel's own coefficient at that step if
one is wanted, all wake rings of that step if they are wanted, and the streamlines in the flow of that step. -/
theorem C75_unsteady {p : UnsteadyProblem} {s s' : UnsteadySolver} {pres sl : Bool} (hp : p.Made) (hs : Reached p s)
    (h : s.run pres sl = .ok s') (k : ℕ) (hk : p.numSteps = k + 1) (hdt : 0 < p.deltaTime) (hP : 0 ≤ p.maxPeriod)
    (scalarType : Option String) (showStreamlines showWake : Bool) (hsl : showStreamlines = true → sl = true)
    (hne : scalarCoefficient scalarType ≠ none → allPanels (p.airplanesAt k) ≠ []) :
    ∃ P, s'.draw scalarType showStreamlines showWake = .ok P ∧
      P.Right (p.airplanesAt k) (fun r => (s'.panels k r).loads) scalarType ∧
      (showWake = false → P.wake = none) ∧
      (showWake = true → ∃ (D : PolyData) (rings : List WakeSlot), P.wake = some D ∧
        D.Shows (rings.map WakeSlot.quad) ∧ rings.length = (wakePlaces p k).length ∧
        ∀ (i : ℕ) place, (wakePlaces p k)[i]? = some place → rings[i]? = wakeRecord s' k place) ∧
      (showStreamlines = false → P.lines = []) ∧
      (showStreamlines = true → P.Streamlines (p.airplanesAt k) (flow s' k)) := by
  have hprob : s'.problem = p := ((hs.rerun h).good hp.regular).problem
  have hkk : k < p.numSteps := by omega
  have hfirst : p.firstResultsStep ≤ (k : ℤ) := by
    have hw := hp.window (by omega) hdt hP
    omega
  have hl : ∀ r ∈ panelRefs (p.airplanesAt k), ∃ L, (s'.panels k r).loads = some L :=
    fun r hr => run_loads hp hs h hkk hfirst hr
  have hlines : showStreamlines = true → ∃ rows, s'.streamlines = some rows ∧
      IsStreamlines (flow s' k) (trailingEdgePoints (p.airplanesAt k)) 25 (1 / 50) rows := by
    intro hx
    have := hsl hx
    subst this
    exact C54_unsteady hp hs h k hk
  obtain ⟨D, rings, hD, hw⟩ := C52_wake hp hs h k hkk
  have hn : s'.problem.numSteps - 1 = k := by rw [hprob]; omega
  have hdraw : s'.draw scalarType showStreamlines showWake = (pictureWake s' k showWake).bind fun wake =>
      picture (p.airplanesAt k) (s'.panels k) s'.streamlines wake scalarType showStreamlines := by
    rw [UnsteadySolver.draw, hn, hprob]
    rfl
  rw [hdraw]
  cases showWake with
  | false =>
    obtain ⟨P, h1, h2, h3, h4, h5⟩ := picture_right (wake := none) hl hne hlines
    exact ⟨P, h1, h2, fun _ => h3, fun hx => (by cases hx), h4, h5⟩
  | true =>
    obtain ⟨P, h1, h2, h3, h4, h5⟩ := picture_right (wake := some D) hl hne hlines
    refine ⟨P, ?_, h2, fun hx => (by cases hx), fun _ => ⟨D, rings, h3, hw⟩, h4, h5⟩
    rw [pictureWake, if_pos rfl, hD]
    exact h1

/-- The hypotheses are met: the square plate drawn with its lift and with streamlines, after either steady solver. -/
example (op : OperatingPoint) (hd : |op.freestreamDirection.y| ≤ op.freestreamDirection.x) :
    ∃ (a : Airplane) (s : HorseshoeSolver) (s' : RingSolver) (P P' : Picture),
      (HorseshoeSolver.create ⟨[a], op⟩).run = .ok s ∧ (RingSolver.create ⟨[a], op⟩).run = .ok s' ∧
      s.draw (some "lift") true = .ok P ∧ s'.draw (some "lift") true = .ok P' ∧
      P.Right [a] s.results.loads (some "lift") ∧ P'.Right [a] s'.results.loads (some "lift") := by
  obtain ⟨a, hmade, hrefs, hp, hspan, _⟩ := plate_airplane
  obtain ⟨s, hs, _⟩ := plate_horseshoe_run (op := op) hmade hrefs hp hspan hd .fresh []
  obtain ⟨s', hs', _⟩ := plate_ring_run (op := op) hmade hrefs hp hspan hd .fresh []
  have hne : allPanels [a] ≠ [] := by
    intro h
    have := congrArg List.length (panelRefs_panels [a])
    rw [h, hrefs] at this
    simp at this
  have hm : ∀ b ∈ (⟨[a], op⟩ : SteadyProblem).airplanes, b.Made := by simpa using hmade
  obtain ⟨h1, h2⟩ := C75_steady ⟨[a], op⟩ hm .fresh [] (some "lift") true false (fun _ => hne)
  obtain ⟨P, e1, e2, -⟩ := h1 s hs
  obtain ⟨P', e3, e4, -⟩ := h2 s' hs'
  exact ⟨a, s, s', P, P', hs, hs', e1, e3, e2, e4⟩

/-- The hypotheses are met: the heaving plate, drawn with its lift, its wake and streamlines after a run of `n + 1`
steps. -/
example (A T : ℝ) (n : ℕ) (dt density velocity alpha : ℝ) (ha : |alpha| ≤ 90) (hdt : 0 < dt) (hv : 0 < velocity)
    (pres : Bool) : ∃ (p : UnsteadyProblem) (s s' : UnsteadySolver) (P : Picture), Reached p s ∧
      s.run pres true = .ok s' ∧ s'.draw (some "lift") true true = .ok P ∧
      P.Right (p.airplanesAt n) (fun r => (s'.panels n r).loads) (some "lift") := by
  obtain ⟨p, hp, _⟩ := heaving_problem A T (n + 1) (by omega) dt density velocity alpha 0 false
  obtain ⟨s, hs⟩ := hp.create (by omega)
  have hr : Reached p s := .fresh hs
  obtain ⟨s', h'⟩ := hp.run hdt.le hv.le (flies_ahead density velocity alpha ha) hr pres true
  have hne : allPanels (p.airplanesAt n) ≠ [] := by
    intro h
    have := congrArg List.length (panelRefs_panels (p.airplanesAt n))
    rw [h, (hp.refs (by omega)).1] at this
    simp at this
  obtain ⟨P, h1, h2, -⟩ := C75_unsteady hp.made hr h' n hp.steps (by rw [hp.dt]; exact hdt)
    (by rw [hp.period]; exact le_max_left _ _) (some "lift") true true (fun _ => rfl)
    (fun _ => hne)
  exact ⟨p, s, s', P, hr, h', h1, h2⟩

end Ptera
