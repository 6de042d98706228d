import Verif.Props.Output

/-!
# C58 and C60: plots and animations of unsteady results
-/

namespace Ptera

open UnsteadySolver

variable {p : UnsteadyProblem} {s s' : UnsteadySolver} {pres sl : Bool}

/-! ## C58: plots -/

/-- C58: the plots of a finished run have one point per step from the first results step on; the point of step `k` is at
the time `k · delta_time` and shows the loads every airplane has at step `k`. -/
theorem C58_points (hp : p.Made) (hs : Reached p s) (h : s.run pres sl = .ok s') (hdt : 0 < p.deltaTime)
    (hP : 0 ≤ p.maxPeriod) (i : ℕ) (hi : i < (p.airplanesAt 0).length) :
    ∃ first : ℕ, p.firstResultsStep = first ∧ first < p.numSteps ∧
    (plotTimes s').length = p.numSteps - first ∧ (plotLoads s' i).length = p.numSteps - first ∧
    ∀ k, first ≤ k → k < p.numSteps → (plotTimes s')[k - first]? = some (k * p.deltaTime) ∧
      ∃ L, (plotLoads s' i)[k - first]? = some (some L) ∧ (s'.loads k)[i]? = some L := by
  have hn := hs.steps hp
  obtain ⟨w1, w2, w3, _⟩ := hp.window hn hdt hP
  have w0 : 0 ≤ p.firstResultsStep := by
    rw [hp.results]
    split
    · exact w1
    · exact le_rfl
  have hprob : s'.problem = p := ((hs.rerun h).good hp.regular).problem
  obtain ⟨first, hf⟩ := Int.eq_ofNat_of_zero_le w0
  have hlt : first < p.numSteps := by omega
  refine ⟨first, hf, hlt, ?_, ?_, ?_⟩
  · simp [plotTimes, hprob, hf, linspace]
  · simp [plotLoads, hprob, hf]
  · intro k h1 h2
    have hk : k - first < p.numSteps - first := by omega
    constructor
    · unfold plotTimes
      rw [hprob, hf, Int.toNat_natCast, linspace_getElem? _ _ _ _ _ hk, if_pos rfl]
      congr 1
      rw [Nat.cast_sub h1, Nat.cast_sub hlt.le]
      push_cast
      by_cases hz : (p.numSteps : ℝ) - first - 1 = 0
      · have e1 : p.numSteps = first + 1 := by
          have : (p.numSteps : ℝ) = ((first + 1 : ℕ) : ℝ) := by push_cast; linarith
          exact_mod_cast this
        have e2 : k = first := by omega
        rw [e2]
        ring
      · field_simp
        ring
    · have hil : i < (s'.loads k).length := by
        rw [(C37_unsteady_steps hp hs h k h2).1 (by omega)]
        have := congrArg List.length (hp.regular.same k h2)
        simp only [layout, List.length_map] at this
        omega
      refine ⟨(s'.loads k)[i], ?_, List.getElem?_eq_getElem hil⟩
      unfold plotLoads
      rw [hprob, hf, Int.toNat_natCast, List.getElem?_map, List.getElem?_range hk, Option.map_some,
        Nat.add_sub_cancel' h1, List.getElem?_eq_getElem hil]

/-! ## C60: animations -/

theorem all_some (l : List (Option ℝ)) (h : ∀ x ∈ l, ∃ v, x = some v) : ∃ values : List ℝ, l = values.map some := by
  induction l with
  | nil => exact ⟨[], rfl⟩
  | cons x l ih =>
    obtain ⟨v, rfl⟩ := h x (by simp)
    obtain ⟨vs, rfl⟩ := ih (fun y hy => h y (by simp [hy]))
    exact ⟨v :: vs, rfl⟩

theorem run_loads (hp : p.Made) (hs : Reached p s) (h : s.run pres sl = .ok s') {k : ℕ} (hk : k < p.numSteps)
    (hfirst : p.firstResultsStep ≤ (k : ℤ)) {r : PanelRef} (hr : r ∈ panelRefs (p.airplanesAt k)) :
    ∃ L, (s'.panels k r).loads = some L := by
  obtain ⟨q, hq⟩ := (mem_panelRefs _ _).mp hr
  obtain ⟨a, w, ha, _, _⟩ := panelAt_cell hq
  obtain ⟨_, P, _, hP, _⟩ := C37_unsteady hp hs h k hk hfirst _ a ha
  exact ⟨P r, (hP r (List.mem_filter.mpr ⟨hr, by simp⟩)).1⟩

/-- The panels of steps before the first results step never get loads. -/
theorem early_loads (hp : p.Made) (hs : Reached p s) {k : ℕ} (hk : k < p.numSteps)
    (hfirst : (k : ℤ) < p.firstResultsStep) (r : PanelRef) : (s.panels k r).loads = none := by
  induction hs with
  | fresh hc =>
    unfold create at hc
    split at hc
    · cases hc
    · rw [← Except.ok.inj hc]; rfl
  | rerun hr hrun ih => rw [((C37_unsteady_steps hp hr hrun k hk).2 hfirst).2 r, ih]
  | aborted hr hops hrun ih => exact aborted_early (hr.good hp.regular).problem hops hrun hfirst r ih
  | another hr hc ih =>
    unfold create at hc
    split at hc
    · cases hc
    · rw [← Except.ok.inj hc]; exact ih

theorem wake_ok (hp : p.Made) (hs : Reached p s) (h : s.run pres sl = .ok s') {k : ℕ} (hk : k < p.numSteps) :
    ∃ D, wakeSurfaces s'.wakeCounts s'.wakeArrays k = .ok D := by
  obtain ⟨D, _, hD, _⟩ := C52_wake hp hs h k hk
  exact ⟨D, hD⟩

theorem frames_ok (hp : p.Made) (hs : Reached p s) (h : s.run pres sl = .ok s') (t : String) (shown wake : Bool) :
    ∃ frames, (List.range s'.problem.steadyProblems.length).mapM (frame s' t shown wake) = .ok frames ∧
      frames.length = p.numSteps ∧ ∀ k < p.numSteps, ∃ f, frames[k]? = some f ∧
        f.surfaces = panelSurfaces (p.airplanesAt k) ∧
        f.scalars = (if shown ∧ p.firstResultsStep ≤ (k : ℤ)
          then some (getScalars (p.airplanesAt k) (s'.panels k) t) else none) ∧
        (wake = true ∧ k ≠ 0 → ∃ D, f.wake = some D ∧ wakeSurfaces s'.wakeCounts s'.wakeArrays k = .ok D) ∧
        (¬ (wake = true ∧ k ≠ 0) → f.wake = none) := by
  have hprob : s'.problem = p := ((hs.rerun h).good hp.regular).problem
  have hlen : s'.problem.steadyProblems.length = p.numSteps := by rw [hprob, hp.regular.steps]
  rw [hlen]
  have hframe : ∀ k < p.numSteps, ∃ f, frame s' t shown wake k = .ok f ∧
      f.surfaces = panelSurfaces (p.airplanesAt k) ∧
      f.scalars = (if shown ∧ p.firstResultsStep ≤ (k : ℤ)
        then some (getScalars (p.airplanesAt k) (s'.panels k) t) else none) ∧
      (wake = true ∧ k ≠ 0 → ∃ D, f.wake = some D ∧ wakeSurfaces s'.wakeCounts s'.wakeArrays k = .ok D) ∧
      (¬ (wake = true ∧ k ≠ 0) → f.wake = none) := by
    intro k hk
    obtain ⟨D, hD⟩ := wake_ok hp hs h hk
    unfold frame frameScalars
    rw [hprob, hD]
    by_cases hw : wake = true ∧ k ≠ 0
    · simp only [if_pos hw]
      exact ⟨_, rfl, rfl, rfl, fun _ => ⟨_, rfl, rfl⟩, fun h => absurd hw h⟩
    · simp only [if_neg hw]
      exact ⟨_, rfl, rfl, rfl, fun h => absurd h hw, fun _ => rfl⟩
  obtain ⟨frames, hf⟩ := mapM_exists (f := frame s' t shown wake) (l := List.range p.numSteps)
    (fun k hk => by obtain ⟨f, hf, _⟩ := hframe k (by simpa using hk); exact ⟨f, hf⟩)
  obtain ⟨h1, h2⟩ := mapM_range hf
  refine ⟨frames, hf, h1, ?_⟩
  intro k hk
  obtain ⟨f, e1, e2⟩ := h2 k hk
  obtain ⟨f', e3, e4⟩ := hframe k hk
  rw [e2] at e3
  cases e3
  exact ⟨f, e1, e4⟩

/-- C60 (no scalars): an animation without scalars, with or without the wake, can be made of every finished run; it has
one frame per step, showing the panels of that step, and the wake of that step on every frame but the first. -/
theorem C60_plain (hp : p.Made) (hs : Reached p s) (h : s.run pres sl = .ok s') (hdt : 0 < p.deltaTime)
    (scalarType : Option String) (wake : Bool) (ht : scalarType ∉ [some "induced drag", some "side force", some "lift"]) :
    ∃ A, animate s' scalarType wake = .ok A ∧ A.colors = none ∧ A.frames.length = p.numSteps ∧
      ∀ k < p.numSteps, ∃ f, A.frames[k]? = some f ∧
        f.surfaces.Shows ((allPanels (p.airplanesAt k)).map Panel.quad) ∧ f.scalars = none ∧
        (wake = true ∧ k ≠ 0 → ∃ D, f.wake = some D ∧ wakeSurfaces s'.wakeCounts s'.wakeArrays k = .ok D) ∧
        (¬ (wake = true ∧ k ≠ 0) → f.wake = none) := by
  have hprob : s'.problem = p := ((hs.rerun h).good hp.regular).problem
  have hn := hs.steps hp
  have hshow : showsScalars scalarType = false := by
    simp only [List.mem_cons, List.not_mem_nil, or_false, not_or] at ht
    simp [showsScalars, ht]
  obtain ⟨rate, speed, hr, _⟩ := C53_rate p.deltaTime hdt
  obtain ⟨frames, hf, hl, hk⟩ := frames_ok hp hs h (scalarType.getD "") (showsScalars scalarType) wake
  refine ⟨⟨frames, rate, speed, none⟩, ?_, rfl, hl, ?_⟩
  · unfold animate animationColors
    rw [if_neg (by simp [hshow]), hf, hprob, hr]
    simp only [bind, Except.bind]
    rw [if_neg (by rw [hp.regular.steps]; omega)]
  · intro k hk'
    obtain ⟨f, e1, e2, e3, e4, e5⟩ := hk k hk'
    refine ⟨f, e1, by rw [e2]; exact C52_panels _, ?_, e4, e5⟩
    rw [e3, if_neg (by simp [hshow])]

/-- C60 (scalars): if results were computed at every step and there is a panel, an animation with scalars can be made of
every finished run; every frame shows the scalars of the panels of its step, and the colours are those of the scalars of
all steps. -/
theorem C60_scalars_partial (hp : p.Made) (hs : Reached p s) (h : s.run pres sl = .ok s') (hdt : 0 < p.deltaTime)
    (hfirst : p.firstResultsStep ≤ 0) (hpanel : allPanels (p.airplanesAt 0) ≠ []) (scalarType : String) (wake : Bool)
    (ht : scalarType ∈ ["induced drag", "side force", "lift"]) :
    ∃ A c values, animate s' (some scalarType) wake = .ok A ∧ A.colors = some c ∧ colors (values.map some) = .ok c ∧
      ((List.range p.numSteps).flatMap fun k => getScalars (p.airplanesAt k) (s'.panels k) scalarType)
        = values.map some ∧ values ≠ [] ∧
      A.frames.length = p.numSteps ∧
      ∀ k < p.numSteps, ∃ f, A.frames[k]? = some f ∧
        f.surfaces.Shows ((allPanels (p.airplanesAt k)).map Panel.quad) ∧
        f.scalars = some (getScalars (p.airplanesAt k) (s'.panels k) scalarType) ∧
        (wake = true ∧ k ≠ 0 → ∃ D, f.wake = some D ∧ wakeSurfaces s'.wakeCounts s'.wakeArrays k = .ok D) ∧
        (¬ (wake = true ∧ k ≠ 0) → f.wake = none) := by
  have hprob : s'.problem = p := ((hs.rerun h).good hp.regular).problem
  have hn := hs.steps hp
  have hshow : showsScalars (some scalarType) = true := by
    simp only [List.mem_cons, List.not_mem_nil, or_false] at ht
    rcases ht with rfl | rfl | rfl <;> simp [showsScalars]
  have hc : ∃ c : PanelLoads → ℝ, ∀ st : PanelState, panelScalar scalarType st = [st.loads.map c] := by
    simp only [List.mem_cons, List.not_mem_nil, or_false] at ht
    rcases ht with rfl | rfl | rfl
    · exact ⟨fun l => l.coefficients.inducedDrag, fun st => by simp [panelScalar]⟩
    · exact ⟨fun l => l.coefficients.sideForce, fun st => by simp [panelScalar]⟩
    · exact ⟨fun l => l.coefficients.lift, fun st => by simp [panelScalar]⟩
  obtain ⟨c, hc⟩ := hc
  have hall : allScalars s' scalarType
      = (List.range p.numSteps).flatMap fun k => getScalars (p.airplanesAt k) (s'.panels k) scalarType := by
    unfold allScalars
    rw [hprob, hp.regular.steps]
  have hsome : ∀ x ∈ allScalars s' scalarType, ∃ v, x = some v := by
    rw [hall]
    intro x hx
    obtain ⟨k, hk, hx⟩ := List.mem_flatMap.mp hx
    rw [getScalars_eq] at hx
    obtain ⟨r, hr, hx⟩ := List.mem_flatMap.mp hx
    rw [hc, List.mem_singleton] at hx
    obtain ⟨L, hL⟩ := run_loads hp hs h (List.mem_range.mp hk) (by omega) hr
    rw [hL] at hx
    exact ⟨_, hx⟩
  obtain ⟨values, hvals⟩ := all_some _ hsome
  have hne : values ≠ [] := by
    rintro rfl
    rw [hall] at hvals
    have := List.flatMap_eq_nil_iff.mp hvals 0 (by simpa using hn)
    rw [getScalars_eq, List.flatMap_eq_nil_iff] at this
    have hz : panelRefs (p.airplanesAt 0) = [] := by
      rw [List.eq_nil_iff_forall_not_mem]
      intro r hr
      have := this r hr
      rw [hc] at this
      cases this
    have := panelRefs_panels (p.airplanesAt 0)
    rw [hz] at this
    exact hpanel (by simpa using this.symm)
  obtain ⟨col, _, _, _, _, hcol, _⟩ := C57_limits values hne
  obtain ⟨rate, speed, hr, _⟩ := C53_rate p.deltaTime hdt
  obtain ⟨frames, hf, hl, hk⟩ := frames_ok hp hs h scalarType true wake
  refine ⟨⟨frames, rate, speed, some col⟩, col, values, ?_, rfl, hcol, by rw [← hall, hvals], hne, hl, ?_⟩
  · unfold animate animationColors
    rw [if_pos (by simp [hshow]), Option.getD_some, hvals, hcol, hshow, hf, hprob, hr]
    simp only [bind, Except.bind, Except.map]
    rw [if_neg (by rw [hp.regular.steps]; omega)]
  · intro k hk'
    obtain ⟨f, e1, e2, e3, e4, e5⟩ := hk k hk'
    refine ⟨f, e1, by rw [e2]; exact C52_panels _, ?_, e4, e5⟩
    rw [e3, if_pos ⟨rfl, by omega⟩]

/-- C60 fails for scalars of runs that only compute final results: the panels of the first steps have none, and the
animation raises. -/
theorem C60_only_final_fails (hp : p.Made) (hs : Reached p s) (h : s.run pres sl = .ok s') (hdt : 0 < p.deltaTime)
    (hfirst : 0 < p.firstResultsStep) (hpanel : allPanels (p.airplanesAt 0) ≠ []) (scalarType : String) (wake : Bool)
    (ht : scalarType ∈ ["induced drag", "side force", "lift"]) :
    animate s' (some scalarType) wake = .error .typeError := by
  have hprob : s'.problem = p := ((hs.rerun h).good hp.regular).problem
  have hn := hs.steps hp
  have hshow : showsScalars (some scalarType) = true := by
    simp only [List.mem_cons, List.not_mem_nil, or_false] at ht
    rcases ht with rfl | rfl | rfl <;> simp [showsScalars]
  have hnone : none ∈ allScalars s' scalarType := by
    unfold allScalars
    rw [hprob, hp.regular.steps, List.mem_flatMap]
    refine ⟨0, by simpa using hn, ?_⟩
    rw [getScalars_eq, List.mem_flatMap]
    have hz : panelRefs (p.airplanesAt 0) ≠ [] := by
      intro hz
      have := panelRefs_panels (p.airplanesAt 0)
      rw [hz] at this
      exact hpanel (by simpa using this.symm)
    obtain ⟨r, hr⟩ := List.exists_mem_of_ne_nil _ hz
    refine ⟨r, hr, ?_⟩
    have hl := early_loads hp (hs.rerun h) hn (by exact_mod_cast hfirst) r
    simp only [List.mem_cons, List.not_mem_nil, or_false] at ht
    rcases ht with rfl | rfl | rfl <;> simp [panelScalar, hl]
  obtain ⟨rate, speed, hr, _⟩ := C53_rate p.deltaTime hdt
  unfold animate animationColors
  rw [if_pos (by simp [hshow]), Option.getD_some, C57_errors.2 _ hnone, hprob, hr]
  rfl

/-- The hypotheses of the theorems above are met by the heaving plate of three periods of ten steps: its runs finish,
with results at all steps or, if only final results are wanted, from step 20 on. -/
example (A density velocity : ℝ) (hv : 0 < velocity) (only pres sl : Bool) :
    ∃ (p : UnsteadyProblem) (s s' : UnsteadySolver), p.Made ∧ Reached p s ∧ s.run pres sl = .ok s' ∧ 0 < p.deltaTime ∧
      0 < p.maxPeriod ∧ p.numSteps = 30 ∧ p.firstResultsStep = (if only then 20 else 0) ∧
      allPanels (p.airplanesAt 0) ≠ [] := by
  obtain ⟨p, hp, honly⟩ := heaving_problem A 1 30 (by norm_num) 0.1 density velocity 5 0 only
  obtain ⟨s, hs⟩ := hp.create (by norm_num)
  have hr : Reached p s := .fresh hs
  obtain ⟨s', h'⟩ := hp.run (by norm_num) hv.le (flies_ahead density velocity 5 (by norm_num)) hr pres sl
  have hper : p.maxPeriod = 1 := by rw [hp.period]; norm_num
  have hdt : 0 < p.deltaTime := by rw [hp.dt]; norm_num
  have hwin : p.firstAveragingStep = 20 := by
    rw [(hp.made.window (by rw [hp.steps]; norm_num) hdt (by rw [hper]; norm_num)).2.2.2, averagingStart, hper, hp.steps,
      hp.dt]
    norm_num
  refine ⟨p, s, s', hp.made, hr, h', hdt, by rw [hper]; norm_num, hp.steps, ?_, ?_⟩
  · rw [hp.made.results, honly, hwin]
  · obtain ⟨_, a, w, h1, h2, _, h4, _⟩ := hp.step 0 (by norm_num)
    simp [allPanels, h1, h2, h4]

end Ptera
