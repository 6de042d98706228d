import Verif.Lemmas.UnsteadyAgree
import Verif.Props.Flapping

/-! What the end of a run appends to the result lists, and that two runs of one problem show the same loads. -/

namespace Ptera

/-- The first step with results. -/
theorem UnsteadyProblem.Made.results {p : UnsteadyProblem} (hp : p.Made) :
    p.firstResultsStep = if p.onlyFinalResults then p.firstAveragingStep else 0 := by
  have key : ∀ {mv only} {p : UnsteadyProblem}, UnsteadyProblem.create mv only = .ok p →
      p.firstResultsStep = if p.onlyFinalResults then p.firstAveragingStep else 0 := by
    intro mv only p h2
    unfold UnsteadyProblem.create at h2
    obtain ⟨P, hP, h2⟩ := bind_ok.mp h2
    obtain ⟨ps, hps, h2⟩ := bind_ok.mp h2
    rw [pure_ok] at h2
    subst h2
    rfl
  obtain ⟨_, _, _, _, _, _, mv, only, q, -, h2, rfl | ⟨nu, -, rfl⟩⟩ := hp
  · exact key h2
  · exact key (p := q) h2

/-- The averaging window of a problem with steps. -/
theorem UnsteadyProblem.Made.window {p : UnsteadyProblem} (hp : p.Made) (hn : 0 < p.numSteps) (hdt : 0 < p.deltaTime)
    (hP : 0 ≤ p.maxPeriod) :
    0 ≤ p.firstAveragingStep ∧ p.firstResultsStep ≤ p.firstAveragingStep ∧ p.firstAveragingStep < p.numSteps ∧
    p.firstAveragingStep = averagingStart p.numSteps p.maxPeriod p.deltaTime := by
  suffices key : ∀ p : UnsteadyProblem, 0 < p.numSteps → 0 < p.deltaTime → 0 ≤ p.maxPeriod → ∀ mv only,
      UnsteadyProblem.create mv only = .ok p → 0 ≤ p.firstAveragingStep ∧ p.firstResultsStep ≤ p.firstAveragingStep ∧
      p.firstAveragingStep < p.numSteps ∧ p.firstAveragingStep = averagingStart p.numSteps p.maxPeriod p.deltaTime by
    obtain ⟨_, _, _, _, _, _, mv, only, q, -, h2, rfl | ⟨nu, -, rfl⟩⟩ := hp
    · exact key _ hn hdt hP mv only h2
    · exact key q hn hdt hP mv only h2
  intro p hn hdt hP mv only h2
  have hdim : mv.numSteps = p.numSteps ∧ mv.deltaTime = p.deltaTime := by
    unfold UnsteadyProblem.create at h2
    obtain ⟨P, hP, h2⟩ := bind_ok.mp h2
    obtain ⟨ps, hps, h2⟩ := bind_ok.mp h2
    rw [pure_ok] at h2
    subst h2
    exact ⟨rfl, rfl⟩
  obtain ⟨e0, e1, e2, e3, _⟩ := C32_results_cover_window mv only p h2 (by omega) (by rw [hdim.2]; exact hdt) hP
  rw [hdim.1, hdim.2] at e0
  exact ⟨le_trans e1 e2, e2, e3, e0⟩

namespace UnsteadySolver

/-- A problem someone has a solver for has steps. -/
theorem Reached.steps {p : UnsteadyProblem} {s : UnsteadySolver} (hs : Reached p s) (hp : p.Made) :
    0 < p.numSteps := by
  have key : ∀ {o : UnsteadyObjects} {s : UnsteadySolver}, UnsteadySolver.create p o = .ok s → 0 < p.numSteps := by
    intro o s hc
    rcases Nat.eq_zero_or_pos p.numSteps with h0 | h0
    · have := hp.regular.steps
      rw [h0, List.length_eq_zero_iff] at this
      unfold create at hc
      rw [this] at hc
      cases hc
    · exact h0
  induction hs with
  | fresh hc => exact key hc
  | rerun _ _ ih => exact ih
  | aborted _ _ _ ih => exact ih
  | another _ hc _ => exact key hc

theorem foldl_appendResults (s : UnsteadySolver) (f : List V3 → V3) (L : ResultLists) (n : ℕ) :
    (List.range n).foldl (s.appendResults f) L =
      { forces := L.forces ++ (List.range n).map fun i => f (s.history (·.forceWind) i)
        forceCoefficients := L.forceCoefficients ++ (List.range n).map fun i => f (s.history (·.forceCoefficients) i)
        moments := L.moments ++ (List.range n).map fun i => f (s.history (·.momentWind) i)
        momentCoefficients :=
          L.momentCoefficients ++ (List.range n).map fun i => f (s.history (·.momentCoefficients) i) } := by
  induction n with
  | zero => simp
  | succ n ih =>
    rw [List.range_succ, List.foldl_append, ih]
    simp [appendResults]

section
variable {p : UnsteadyProblem} {pres : Bool} {s s' : UnsteadySolver} {st sm : ℕ → UnsteadySolver}

/-- The result lists after a run. -/
theorem Trace.finals (h : Trace p pres s s' st sm) :
    let n := (p.airplanesAt 0).length
    (p.maxPeriod = 0 → s'.final = (List.range n).foldl (s'.appendResults fun h => h.getLastD 0) s.final ∧
      s'.finalMean = s.finalMean ∧ s'.finalRms = s.finalRms) ∧
    (p.maxPeriod ≠ 0 → s'.final = s.final ∧
      s'.finalMean = (List.range n).foldl (s'.appendResults meanOf) s.finalMean ∧
      s'.finalRms = (List.range n).foldl (s'.appendResults rmsOf) s.finalRms) := by
  intro n
  set t := st p.numSteps with ht
  have htp : t.problem = p := (h.inv p.numSteps le_rfl).problem
  have keep : t.final = s.final ∧ t.finalMean = s.finalMean ∧ t.finalRms = s.finalRms := by
    have hstep : ∀ k, 0 ≤ k → k < p.numSteps → ((st (k + 1)).final, (st (k + 1)).finalMean, (st (k + 1)).finalRms)
        = ((st k).final, (st k).finalMean, (st k).finalRms) := by
      intro k _ hk
      obtain ⟨x, hx⟩ := h.solved k hk
      obtain ⟨_, _, _, _, _, _, _, _, _, e1, e2, e3⟩ := (h.shed k hk).same
      rw [e1, e2, e3, hx.finals.1, hx.finals.2.1, hx.finals.2.2]
    have := persist (st := st) (fun t => (t.final, t.finalMean, t.finalRms)) 0 p.numSteps (by omega) hstep
    simp only [Prod.mk.injEq] at this
    rw [h.start] at this
    exact this
  have hhist : s'.history = t.history := by
    funext f i
    unfold history averagingSteps
    rw [h.final_eq.2.1, h.final_eq.2.2.2.2.2.2, htp]
  have happ : ∀ f, s'.appendResults f = t.appendResults f := by
    intro f
    funext L i
    unfold appendResults
    rw [hhist]
  have hfin : s'.final = t.finalize.final ∧ s'.finalMean = t.finalize.finalMean ∧ s'.finalRms = t.finalize.finalRms := by
    obtain ⟨sl, e⟩ := h.finish
    cases sl
    · simp only [Bool.false_eq_true, if_false] at e
      rw [e]
      exact ⟨rfl, rfl, rfl⟩
    · simp only [if_true] at e
      rw [e]
      exact ⟨rfl, rfl, rfl⟩
  rw [hfin.1, hfin.2.1, hfin.2.2, happ, happ, happ, ← keep.1, ← keep.2.1, ← keep.2.2]
  unfold finalize
  rw [htp]
  constructor
  · intro h0
    rw [if_pos h0]
    exact ⟨rfl, rfl, rfl⟩
  · intro h0
    rw [if_neg h0]
    exact ⟨rfl, rfl, rfl⟩

theorem Trace.run_finals (h : Trace p pres s.begun s' st sm) :
    let n := (p.airplanesAt 0).length
    (p.maxPeriod = 0 → s'.final = (List.range n).foldl (s'.appendResults fun h => h.getLastD 0) s.final ∧
      s'.finalMean = s.finalMean ∧ s'.finalRms = s.finalRms) ∧
    (p.maxPeriod ≠ 0 → s'.final = s.final ∧
      s'.finalMean = (List.range n).foldl (s'.appendResults meanOf) s.finalMean ∧
      s'.finalRms = (List.range n).foldl (s'.appendResults rmsOf) s.finalRms) := h.finals

/-- The counts and arrays of wake rings are appended to at every run. -/
theorem Trace.lists (h : Trace p pres s.begun s' st sm) :
    s'.wakeCounts.length = s.wakeCounts.length + p.numSteps ∧
    s'.wakeArrays.length = s.wakeArrays.length + p.numSteps := by
  have hstep : ∀ k, 0 ≤ k → k < p.numSteps → ((st (k + 1)).wakeCounts.length, (st (k + 1)).wakeArrays.length)
      = ((st k).wakeCounts.length, (st k).wakeArrays.length) := by
    intro k _ hk
    obtain ⟨x, hx⟩ := h.solved k hk
    obtain ⟨_, _, e1, _, _, _, _, _, e2, _⟩ := (h.shed k hk).same
    rw [e1, e2, hx.counts, hx.arraysLen]
  have := persist (st := st) (fun t => (t.wakeCounts.length, t.wakeArrays.length)) 0 p.numSteps (by omega) hstep
  simp only [Prod.mk.injEq] at this
  have hcounts : s'.wakeCounts = (st p.numSteps).wakeCounts := by
    obtain ⟨sl, e⟩ := h.finish
    have hr := (st p.numSteps).finalize_rest
    cases sl
    · simp only [Bool.false_eq_true, if_false] at e
      rw [e, hr]
    · simp only [if_true] at e
      rw [e]
      unfold calculateStreamlines
      rw [hr]
  have hprob : s.problem = p := by
    have := (h.inv 0 (by omega)).problem
    rw [h.start] at this
    exact this
  rw [hcounts, h.final_eq.2.2.1, this.1, this.2, h.start]
  have e1 : s.begun.wakeCounts.length = s.wakeCounts.length + p.numSteps := by
    change (s.wakeCounts ++ _).length = _
    rw [hprob]
    simp
  have e2 : s.begun.wakeArrays.length = s.wakeArrays.length + p.numSteps := by
    change (s.wakeArrays ++ _).length = _
    rw [hprob]
    simp
  exact ⟨e1, e2⟩

end

section
variable {p : UnsteadyProblem} {pres : Bool} {s1 s2 s1' s2' : UnsteadySolver} {st1 sm1 st2 sm2 : ℕ → UnsteadySolver}

/-- Loads of two finished runs whose rings agree. -/
theorem agree_loads (hp : p.Regular) (hc : p.Chordwise)
    (t1 : Trace p pres s1 s1' st1 sm1) (t2 : Trace p pres s2 s2' st2 sm2)
    (hr : ∀ j < p.numSteps, ∀ r ∈ panelRefs (p.airplanesAt j), (s1'.panels j r).ring = (s2'.panels j r).ring)
    {k : ℕ} (hk : k < p.numSteps) (hfirst : p.firstResultsStep ≤ (k : ℤ)) :
    (∀ r ∈ panelRefs (p.airplanesAt k), (s1'.panels k r).loads = (s2'.panels k r).loads) ∧
    s1'.loads k = s2'.loads k := by
  have hflow : ∀ q, flow s1' k q = flow s2' k q := (agree_finished hp hc t1 t2 hr k hk).2.2
  have hpt : ∀ j < p.numSteps, ∀ r ∈ panelRefs (p.airplanesAt j), ∀ f, ringPoint s1' j r f = ringPoint s2' j r f := by
    intro j hj r hmem f
    unfold ringPoint
    rw [hr j hj r hmem]
  have hpv : ∀ r ∈ panelRefs (p.airplanesAt k), ∀ f, pointVelocity s1' k r f = pointVelocity s2' k r f := by
    intro r hmem f
    cases k with
    | zero => rfl
    | succ j =>
      simp only [pointVelocity]
      rw [hpt (j + 1) hk r hmem, hpt j (by omega) r (by rw [panelRefs_same hp (by omega) hk]; exact hmem),
        t1.final_eq.2.2.2.2.2.2, t2.final_eq.2.2.2.2.2.2]
  have hrel : ∀ r ∈ panelRefs (p.airplanesAt k), ∀ f, relativeFlow s1' k r f = relativeFlow s2' k r f := by
    intro r hmem f
    unfold relativeFlow
    rw [hpt k hk r hmem, hpv r hmem, hflow]
  have hst : ∀ j < p.numSteps, ∀ r, strengthAt (p.airplanesAt j) (s1'.panels j) r
      = strengthAt (p.airplanesAt j) (s2'.panels j) r := by
    intro j hj r
    unfold strengthAt
    by_cases h : ∃ q, panelAt (p.airplanesAt j) r = some q
    · rw [if_pos h, if_pos h, hr j hj r ((mem_panelRefs _ _).mpr h)]
    · rw [if_neg h, if_neg h]
  have hprev : ∀ r, previousStrength s1' k r = previousStrength s2' k r := by
    intro r
    cases k with
    | zero => rfl
    | succ j =>
      simp only [previousStrength]
      rw [t1.final_eq.2.2.2.2.2.2, t2.final_eq.2.2.2.2.2.2, hst j (by omega)]
  obtain ⟨T1, e1, a1, b1, c1, d1⟩ := t1.forces hp hk hfirst
  obtain ⟨T2, e2, a2, b2, c2, d2⟩ := t2.forces hp hk hfirst
  have hF : ∀ (g : ℕ) (r : PanelRef), (panelRefs (p.airplanesAt k))[g]? = some r →
      T1.nearFieldForces.getD g 0 = T2.nearFieldForces.getD g 0 ∧
      T1.nearFieldMoments.getD g 0 = T2.nearFieldMoments.getD g 0 := by
    intro g r hg
    have hmem := List.mem_of_getElem? hg
    obtain ⟨f1, m1⟩ := d1 g r hg
    obtain ⟨f2, m2⟩ := d2 g r hg
    unfold netFront netLeft netRight at f1 m1 f2 m2
    simp only [hst k hk, hrel r hmem, hprev] at f1 m1
    rw [getD_some f1, getD_some f2, getD_some m1, getD_some m2]
    exact ⟨rfl, rfl⟩
  have hTa : T1.airplanes = p.airplanesAt k ∧ T2.airplanes = p.airplanesAt k := by
    unfold airplanes; rw [b1, a1, b2, a2]; exact ⟨rfl, rfl⟩
  have hTo : T1.operatingPoint = p.operatingPointAt k ∧ T2.operatingPoint = p.operatingPointAt k := by
    unfold operatingPoint; rw [b1, a1, b2, a2]; exact ⟨rfl, rfl⟩
  have f1 : (s1'.panels k, s1'.loads k) = processForces (p.operatingPointAt k) (p.airplanesAt k)
      (panelRefs (p.airplanesAt k)) T1.nearFieldForces T1.nearFieldMoments (T1.panels k) := by
    rw [t1.panels hk, t1.loads hk, e1]
    unfold calculateForces
    simp only [a1, c1, hTa.1, hTo.1, Function.update_self]
  have f2 : (s2'.panels k, s2'.loads k) = processForces (p.operatingPointAt k) (p.airplanesAt k)
      (panelRefs (p.airplanesAt k)) T2.nearFieldForces T2.nearFieldMoments (T2.panels k) := by
    rw [t2.panels hk, t2.loads hk, e2]
    unfold calculateForces
    simp only [a2, c2, hTa.2, hTo.2, Function.update_self]
  have p1 : s1'.panels k = _ := congrArg Prod.fst f1
  have p2 : s2'.panels k = _ := congrArg Prod.fst f2
  have l1 : s1'.loads k = _ := congrArg Prod.snd f1
  have l2 : s2'.loads k = _ := congrArg Prod.snd f2
  have hpl : ∀ r ∈ panelRefs (p.airplanesAt k), (s1'.panels k r).loads = (s2'.panels k r).loads := by
    intro r hmem
    obtain ⟨g, hg⟩ := List.getElem?_of_mem hmem
    rw [p1, p2]
    simp only [processForces]
    rw [(storePanelLoads_spec (p.operatingPointAt k) (p.airplanesAt k) (panelRefs (p.airplanesAt k)) T1.nearFieldForces
        T1.nearFieldMoments (T1.panels k) (panelRefs_nodup _)).1 g r hg,
      (storePanelLoads_spec (p.operatingPointAt k) (p.airplanesAt k) (panelRefs (p.airplanesAt k)) T2.nearFieldForces
        T2.nearFieldMoments (T2.panels k) (panelRefs_nodup _)).1 g r hg, (hF g r hg).1, (hF g r hg).2]
  refine ⟨hpl, ?_⟩
  have h1' : s1'.loads k
      = (p.airplanesAt k).zipIdx.map fun a => airplaneLoads (p.operatingPointAt k) (s1'.panels k) a.1 a.2 := by
    rw [l1, p1]; rfl
  have h2' : s2'.loads k
      = (p.airplanesAt k).zipIdx.map fun a => airplaneLoads (p.operatingPointAt k) (s2'.panels k) a.1 a.2 := by
    rw [l2, p2]; rfl
  rw [h1', h2']
  apply List.map_congr_left
  rintro ⟨a, i⟩ ha
  have ha' : (p.airplanesAt k)[i]? = some a := by
    obtain ⟨h1, h2⟩ := List.mem_zipIdx' ha
    rw [List.getElem?_eq_getElem h1, h2]
  have hown : ∀ r ∈ airplaneRefs a i, r ∈ panelRefs (p.airplanesAt k) := by
    intro r hmem
    rw [← panelRefs_filter _ i a ha'] at hmem
    exact (List.mem_filter.mp hmem).1
  have hforce : ∀ r ∈ airplaneRefs a i, (s1'.panels k r).force = (s2'.panels k r).force ∧
      (s1'.panels k r).moment = (s2'.panels k r).moment := by
    intro r hmem
    unfold PanelState.force PanelState.moment
    rw [hpl r (hown r hmem)]
    exact ⟨rfl, rfl⟩
  simp only [airplaneLoads]
  have s1 : (airplaneRefs a i).foldl (fun total r => total + (s1'.panels k r).force) 0
      = (airplaneRefs a i).foldl (fun total r => total + (s2'.panels k r).force) 0 := by
    apply List.foldl_ext
    intro b r hmem
    rw [(hforce r hmem).1]
  have s2 : (airplaneRefs a i).foldl (fun total r => total + (s1'.panels k r).moment) 0
      = (airplaneRefs a i).foldl (fun total r => total + (s2'.panels k r).moment) 0 := by
    apply List.foldl_ext
    intro b r hmem
    rw [(hforce r hmem).2]
  rw [s1, s2]

end

end UnsteadySolver
end Ptera
