import Verif.Lemmas.ParallelFlow
import Verif.Props.SteadyRuns
import Verif.Props.UnsteadyExample

/-!
# Surfaces parallel to the flow

C73: if the freestream, seen from the moving wings, is parallel to every panel, nothing disturbs the flow and there are
no loads.
-/

namespace Ptera

open List UnsteadySolver

/-- C73 (steady solvers): if the freestream is parallel to every panel, then after a run, whatever earlier runs have left
on the panels, every vortex has zero strength, the flow is the freestream at every point, and all forces, moments and
coefficients, of every panel and of every airplane, are zero. -/
theorem C73_steady (method : SteadyMethod) (P : SteadyProblem) (hmade : ∀ a ∈ P.airplanes, a.Made) (heap : PanelHeap)
    (loads : List AirplaneLoads) (R : SteadyResults) (h : steadyRun method P heap loads = .ok R)
    (hpar : ∀ r p, panelAt P.airplanes r = some p → P.operatingPoint.freestreamVelocity.dot p.unitNormal = 0) :
    (∀ q, R.velocity q = P.operatingPoint.freestreamVelocity) ∧
    (∀ r p, panelAt P.airplanes r = some p → R.strength r = some 0 ∧ ∃ L, R.loads r = some L ∧
      L.forceGeometry = 0 ∧ L.momentGeometry = 0 ∧ L.forceWind = 0 ∧ L.momentWind = 0) ∧
    (∀ a < P.airplanes.length, R.totals[a]? = some ⟨0, 0, 0, 0⟩) := by
  have hrhs : ∀ i ∈ panelRefs P.airplanes,
      -(P.operatingPoint.freestreamVelocity.dot (geometryOf P.airplanes i).unitNormal) = 0 := by
    intro i hi
    obtain ⟨p, hp⟩ := (mem_panelRefs _ _).mp hi
    rw [geometryOf_eq hp, hpar i p hp, neg_zero]
  have key : (∀ q, R.velocity q = P.operatingPoint.freestreamVelocity) ∧
      (∀ r p, panelAt P.airplanes r = some p → R.strength r = some 0 ∧ ∃ L, R.loads r = some L ∧
        L.forceGeometry = 0 ∧ L.momentGeometry = 0) := by
    cases method with
    | horseshoe =>
      simp only [steadyRun] at h
      cases hr : (HorseshoeSolver.create P heap loads).run with
      | error e => rw [hr] at h; cases h
      | ok s =>
        rw [hr] at h
        cases h
        obtain ⟨Γ, h1, h2, h3⟩ := HorseshoeSolver.run_values hmade hr
        have hz := linalgSolve_zero (b := HorseshoeSolver.rhs P) hrhs h1
        refine ⟨?_, ?_⟩
        · intro q
          simp only [HorseshoeSolver.results, h3 q, List.headD_cons]
          rw [sum_zeros (fun r hr => by rw [hz r hr, zero_smul]), zero_add]
        · intro r p hp
          obtain ⟨a, -, ha, -⟩ := panelAt_cell hp
          obtain ⟨L, v, u, e1, e2, e3, e4, e5⟩ := C35_horseshoe P hmade heap loads s hr r p a hp ha
          obtain ⟨v', f1, f2⟩ := h2 r p hp
          rw [e2, Option.some.injEq] at f1
          subst f1
          rw [hz r ((mem_panelRefs _ _).mpr ⟨p, hp⟩)] at f2
          refine ⟨by simp [HorseshoeSolver.results, e2, f2], L, e1, ?_, ?_⟩
          · rw [e4, f2, kutta_zero]
          · rw [e5, e4, f2, kutta_zero, V3.cross_zero]
    | ring =>
      simp only [steadyRun] at h
      cases hr : (RingSolver.create P heap loads).run with
      | error e => rw [hr] at h; cases h
      | ok s =>
        rw [hr] at h
        cases h
        obtain ⟨Γ, h1, h2, h3⟩ := RingSolver.run_values hmade hr
        have hz := linalgSolve_zero (b := RingSolver.rhs P) hrhs h1
        have hs0 : ∀ r p, panelAt P.airplanes r = some p → ∃ v, (s.heap r).ring = some v ∧ v.strength = 0 := by
          intro r p hp
          exact ⟨_, h2 r p hp, hz r ((mem_panelRefs _ _).mpr ⟨p, hp⟩)⟩
        have hst : ∀ r, strengthAt P.airplanes s.heap r = 0 := by
          intro r
          unfold strengthAt
          split_ifs with hc
          · obtain ⟨p, hp⟩ := hc
            obtain ⟨v, e1, e2⟩ := hs0 r p hp
            simp [e1, e2]
          · rfl
        refine ⟨?_, ?_⟩
        · intro q
          simp only [RingSolver.results, h3 q, List.headD_cons]
          rw [sum_zeros (fun r hr => by rw [hz r hr, zero_smul]), zero_add]
        · intro r p hp
          obtain ⟨a, -, ha, -⟩ := panelAt_cell hp
          obtain ⟨L, v, F, Lf, Rf, e1, e2, e3, e4, e5, e6, e7⟩ := C35_ring P hmade heap loads s hr r p a hp ha
          obtain ⟨v', f1, f2⟩ := hs0 r p hp
          obtain ⟨n1, n2, n3⟩ := nets_zero hst r
          rw [n1] at e3; rw [n2] at e4; rw [n3] at e5
          have g : ∀ {x y f : V3}, s.IsLegForce P.operatingPoint.density 0 x y f → f = 0 := by
            intro x y f hf
            obtain ⟨u, -, rfl⟩ := hf
            exact kutta_zero _ _ _
          refine ⟨by simp [RingSolver.results, f1, f2], L, e1, ?_, ?_⟩
          · rw [e6, g e3, g e4, g e5]; simp
          · rw [e7, g e3, g e4, g e5]; simp
  obtain ⟨k1, k2⟩ := key
  have tot := fun a A ha => steadyRun_totals method P hmade heap loads R h a A ha
  have wind : ∀ r p, panelAt P.airplanes r = some p → ∃ L, R.loads r = some L ∧ L.forceGeometry = 0 ∧
      L.momentGeometry = 0 ∧ L.forceWind = 0 ∧ L.momentWind = 0 := by
    intro r p hp
    obtain ⟨A, -, hA, -⟩ := panelAt_cell hp
    obtain ⟨-, Q, -, hQ, -⟩ := tot _ A hA
    obtain ⟨q1, q2, q3⟩ := hQ r (List.mem_filter.mpr ⟨(mem_panelRefs _ _).mpr ⟨p, hp⟩, by simp⟩)
    obtain ⟨-, L, e1, e2, e3⟩ := k2 r p hp
    rw [e1, Option.some.injEq] at q1
    subst q1
    exact ⟨_, e1, e2, e3, by rw [q2, e2, M3.mulVec_zero], by rw [q3, e3, M3.mulVec_zero]⟩
  refine ⟨k1, fun r p hp => ⟨(k2 r p hp).1, wind r p hp⟩, ?_⟩
  intro a ha
  obtain ⟨L, Q, t1, t2, t3, t4, t5⟩ := tot a _ (List.getElem?_eq_getElem ha)
  have hz : ∀ r ∈ (panelRefs P.airplanes).filter (fun r => r.airplane = a), (Q r).forceWind = 0 ∧ (Q r).momentWind = 0 := by
    intro r hr
    obtain ⟨p, hp⟩ := (mem_panelRefs _ _).mp (List.mem_filter.mp hr).1
    obtain ⟨L', e1, -, -, e2, e3⟩ := wind r p hp
    have := (t2 r hr).1
    rw [e1, Option.some.injEq] at this
    subst this
    exact ⟨e2, e3⟩
  rw [t1, zero_totals (t3.trans (sum_zeros fun r hr => (hz r hr).1)) (t4.trans (sum_zeros fun r hr => (hz r hr).2)) t5]

theorem level_freestream (velocity density : ℝ) :
    OperatingPoint.freestreamVelocity { velocity, density, alpha := 0, beta := 0 } = ⟨velocity, 0, 0⟩ ∧
    OperatingPoint.freestreamDirection { velocity, density, alpha := 0, beta := 0 } = ⟨1, 0, 0⟩ := by
  have h := C01_freestream_direction { velocity, density, alpha := 0, beta := 0 }
  simp only [zero_mul, zero_div, Real.cos_zero, Real.sin_zero, mul_one, neg_zero] at h
  refine ⟨?_, h⟩
  unfold OperatingPoint.freestreamVelocity
  rw [h]
  ext <;> simp

/-- The hypotheses are met: a flat plate at zero angle of attack, at any speed and density; both solvers run. -/
example (method : SteadyMethod) (velocity density : ℝ) (heap : PanelHeap) (loads : List AirplaneLoads) :
    ∃ (a : Airplane) (R : SteadyResults), a.Made ∧
      steadyRun method ⟨[a], { velocity, density, alpha := 0, beta := 0 }⟩ heap loads = .ok R ∧
      panelAt [a] ⟨0, 0, 0, 0⟩ = some unitSquare ∧
      ∀ r p, panelAt [a] r = some p →
        (OperatingPoint.freestreamVelocity { velocity, density, alpha := 0, beta := 0 }).dot p.unitNormal = 0 := by
  obtain ⟨a, hmade, hrefs, hp, hspan, -⟩ := plate_airplane_at 1 0
  obtain ⟨e1, e2⟩ := level_freestream velocity density
  have hd : |(OperatingPoint.freestreamDirection { velocity, density, alpha := 0, beta := 0 }).y|
      ≤ (OperatingPoint.freestreamDirection { velocity, density, alpha := 0, beta := 0 }).x := by
    rw [e2]; simp
  have hpar : ∀ r p, panelAt [a] r = some p →
      (OperatingPoint.freestreamVelocity { velocity, density, alpha := 0, beta := 0 }).dot p.unitNormal = 0 := by
    intro r p hr
    have hm : r ∈ panelRefs [a] := (mem_panelRefs _ _).mpr ⟨p, hr⟩
    rw [hrefs, List.mem_singleton] at hm
    subst hm
    rw [hp, Option.some.injEq] at hr
    subst hr
    rw [e1, unitSquare_normal]
    simp [V3.dot]
  cases method with
  | horseshoe =>
    obtain ⟨s, hs, -⟩ := plate_horseshoe_run _ hmade hrefs hp hspan hd heap loads
    exact ⟨a, s.results, hmade, by simp only [steadyRun, hs]; rfl, hp, hpar⟩
  | ring =>
    obtain ⟨s, hs, -⟩ := plate_ring_run _ hmade hrefs hp hspan hd heap loads
    exact ⟨a, s.results, hmade, by simp only [steadyRun, hs]; rfl, hp, hpar⟩

/-- C73 (unsteady solver): if during the first `N` steps the freestream, seen from the collocation point of every panel as
it moves, is parallel to the panel, then during these steps, with a prescribed or a free wake, every ring on the wings and
in the wake has zero strength, the flow is the freestream at every point, and where loads are computed all forces, moments
and coefficients are zero. -/
theorem C73_unsteady {p : UnsteadyProblem} {s s₁ : UnsteadySolver} {pres sl : Bool} (hp : p.Made) (hc : p.Chordwise)
    (hs : Reached p s) (hrun : s.run pres sl = .ok s₁) (N : ℕ) (hN : N ≤ p.numSteps)
    (hfirst : ∀ r c, panelAt (p.airplanesAt 0) r = some c →
      (p.operatingPointAt 0).freestreamVelocity.dot c.unitNormal = 0)
    (hnext : ∀ j, j + 1 < N → ∀ r last c, panelAt (p.airplanesAt j) r = some last →
      panelAt (p.airplanesAt (j + 1)) r = some c →
      ((p.operatingPointAt (j + 1)).freestreamVelocity
        - (1 / p.deltaTime) • (c.collocationPoint - last.collocationPoint)).dot c.unitNormal = 0) (k : ℕ) (hk : k < N) :
    (∀ q, flow s₁ k q = (p.operatingPointAt k).freestreamVelocity) ∧
    (∀ r c, panelAt (p.airplanesAt k) r = some c → ∃ v, (s₁.panels k r).ring = some v ∧ v.strength = 0) ∧
    (∀ c ∈ wakePlaces p k, ∃ w, wakeRecord s₁ k c = some w ∧ w.strength = 0) ∧
    (p.firstResultsStep ≤ k →
      (∀ r c, panelAt (p.airplanesAt k) r = some c → ∃ L, (s₁.panels k r).loads = some L ∧
        L.forceGeometry = 0 ∧ L.momentGeometry = 0 ∧ L.forceWind = 0 ∧ L.momentWind = 0) ∧
      ∀ a < (p.airplanesAt k).length, (s₁.loads k)[a]? = some ⟨0, 0, 0, 0⟩) := by
  obtain ⟨st, sm, ht⟩ := hs.trace hp hrun
  have hprob : s₁.problem = p := ht.final_eq.2.2.2.2.2.2
  have key : ∀ k < N, (∀ r c, panelAt (p.airplanesAt k) r = some c → ∃ v, (s₁.panels k r).ring = some v ∧
      v.strength = 0) ∧ ∀ q, flow s₁ k q = (p.operatingPointAt k).freestreamVelocity := by
    intro k
    induction k using Nat.strong_induction_on with
    | _ k ih =>
      intro hk
      obtain ⟨-, hwf⟩ := wake_idle hp.regular hc ht (k := k) (by omega) fun j hj => (ih j hj (by omega)).1
      obtain ⟨Γ, h1, h2, h3⟩ := ht.values hp.regular (k := k) (by omega)
      have hz := linalgSolve_zero (b := rhsAt p s₁ k) (by
        intro i hi
        obtain ⟨c, hci⟩ := (mem_panelRefs _ _).mp hi
        unfold rhsAt
        rw [hwf, zero_add, geometryOf_eq hci, neg_eq_zero]
        cases k with
        | zero =>
          simp only [apparent, zero_lt_one, if_true, add_zero]
          exact hfirst i c hci
        | succ j =>
          have hi' : i ∈ panelRefs (p.airplanesAt j) := by
            rwa [panelRefs_layout (hp.regular.made j), hp.regular.same j (by omega), ← hp.regular.same (j + 1) (by omega),
              ← panelRefs_layout (hp.regular.made _)]
          obtain ⟨last, hl⟩ := (mem_panelRefs _ _).mp hi'
          have := hnext j hk i last c hl hci
          simp only [apparent, show ¬(j + 1 < 1) by omega, if_false, Nat.add_sub_cancel, geometryOf_eq hci,
            geometryOf_eq hl]
          rwa [smul_neg, ← sub_eq_add_neg]) h1
      refine ⟨?_, ?_⟩
      · intro r c hr
        have hm := (mem_panelRefs _ _).mpr ⟨c, hr⟩
        exact ⟨_, h2 r hm, hz r hm⟩
      · intro q
        unfold flow
        rw [h3, hwf, sum_zeros (fun r hr => by rw [hz r hr, zero_smul]), hprob, zero_add, zero_add]
  obtain ⟨k1, k2⟩ := key k hk
  have hkn : k < p.numSteps := by omega
  obtain ⟨hw, -⟩ := wake_idle hp.regular hc ht hkn fun j hj => (key j (by omega)).1
  refine ⟨k2, k1, ?_, ?_⟩
  · intro c hcm
    exact ⟨_, ht.wakeRecord hkn hcm, hw c hcm⟩
  intro hfr
  have hst : ∀ j < N, ∀ r, strengthAt (p.airplanesAt j) (s₁.panels j) r = 0 := by
    intro j hj r
    unfold strengthAt
    split_ifs with hex
    · obtain ⟨c, hc⟩ := hex
      obtain ⟨v, e1, e2⟩ := (key j hj).1 r c hc
      simp [e1, e2]
    · rfl
  have geo : ∀ r c, panelAt (p.airplanesAt k) r = some c → ∃ L, (s₁.panels k r).loads = some L ∧
      L.forceGeometry = 0 ∧ L.momentGeometry = 0 := by
    intro r c hr
    obtain ⟨A, -, hA, -⟩ := panelAt_cell hr
    obtain ⟨L, v, F, Lf, R, U, e1, e2, e3, e4, e5, e6, e7, e8⟩ := C35_unsteady hp hs hrun k hkn hfr r c A hr hA
    obtain ⟨n1, n2, n3⟩ := nets_zero (hst k hk) r
    obtain ⟨v', f1, f2⟩ := k1 r c hr
    rw [e2, Option.some.injEq] at f1
    subst f1
    have hprev : previousStrength s₁ k r = 0 := by
      cases k with
      | zero => rfl
      | succ j => simp only [previousStrength, hprob]; exact hst j (by omega) r
    rw [n1, kutta_zero] at e3
    rw [n2, kutta_zero] at e4
    rw [n3, kutta_zero] at e5
    rw [f2, hprev, sub_zero, mul_zero, zero_mul, zero_div, zero_smul] at e6
    subst e3 e4 e5 e6
    exact ⟨L, e1, by rw [e7]; simp, by rw [e8]; simp⟩
  have tot := fun a A ha => C37_unsteady hp hs hrun k hkn hfr a A ha
  have wind : ∀ r c, panelAt (p.airplanesAt k) r = some c → ∃ L, (s₁.panels k r).loads = some L ∧ L.forceGeometry = 0 ∧
      L.momentGeometry = 0 ∧ L.forceWind = 0 ∧ L.momentWind = 0 := by
    intro r c hr
    obtain ⟨A, -, hA, -⟩ := panelAt_cell hr
    obtain ⟨-, Q, -, hQ, -⟩ := tot _ A hA
    obtain ⟨q1, q2, q3⟩ := hQ r (List.mem_filter.mpr ⟨(mem_panelRefs _ _).mpr ⟨c, hr⟩, by simp⟩)
    obtain ⟨L, e1, e2, e3⟩ := geo r c hr
    rw [e1, Option.some.injEq] at q1
    subst q1
    exact ⟨_, e1, e2, e3, by rw [q2, e2, M3.mulVec_zero], by rw [q3, e3, M3.mulVec_zero]⟩
  refine ⟨wind, ?_⟩
  intro a ha
  obtain ⟨L, Q, t1, t2, t3, t4, t5⟩ := tot a _ (List.getElem?_eq_getElem ha)
  have hz : ∀ r ∈ (panelRefs (p.airplanesAt k)).filter (fun r => r.airplane = a),
      (Q r).forceWind = 0 ∧ (Q r).momentWind = 0 := by
    intro r hr
    obtain ⟨c, hc⟩ := (mem_panelRefs _ _).mp (List.mem_filter.mp hr).1
    obtain ⟨L', e1, -, -, e2, e3⟩ := wind r c hc
    have := (t2 r hr).1
    rw [e1, Option.some.injEq] at this
    subst this
    exact ⟨e2, e3⟩
  rw [t1, zero_totals (t3.trans (sum_zeros fun r hr => (hz r hr).1)) (t4.trans (sum_zeros fun r hr => (hz r hr).2)) t5]

/-- The hypotheses are met: a plate that stays level in a level freestream, over any number of steps. -/
example (n : ℕ) (hn : 0 < n) (dt velocity : ℝ) (hdt : 0 < dt) (hv : 0 < velocity) (pres sl : Bool) :
    ∃ p s s₁, p.Made ∧ p.Chordwise ∧ p.numSteps = n ∧ Reached p s ∧ s.run pres sl = .ok s₁ ∧
      (∀ r c, panelAt (p.airplanesAt 0) r = some c →
        (p.operatingPointAt 0).freestreamVelocity.dot c.unitNormal = 0) ∧
      (∀ j, j + 1 < n → ∀ r last c, panelAt (p.airplanesAt j) r = some last →
        panelAt (p.airplanesAt (j + 1)) r = some c →
        ((p.operatingPointAt (j + 1)).freestreamVelocity
          - (1 / p.deltaTime) • (c.collocationPoint - last.collocationPoint)).dot c.unitNormal = 0) ∧
      ∀ k < n, (∃ c, panelAt (p.airplanesAt k) ⟨0, 0, 0, 0⟩ = some c) ∧
        ∀ i < k, (⟨0, 0, i, 0⟩ : WakePlace) ∈ wakePlaces p k := by
  obtain ⟨w, hw, -, h⟩ := heaving_movement_of 1 0 0
  obtain ⟨a, ha1⟩ : ∃ a, Airplane.create [w] = .ok a := ⟨_, rfl⟩
  obtain ⟨-, mv, p, h1, h2, hp, -⟩ := h a n hn dt { velocity := velocity, alpha := 0, beta := 0 } false
  obtain ⟨s, hs⟩ := hp.create hn
  have hr : Reached p s := .fresh hs
  obtain ⟨s₁, hrun⟩ := hp.run hdt.le hv.le (flies_ahead _ velocity 0 (by simp)) hr pres sl
  have hz : ∀ k < n, (oscillatingSinspace 0 0 0 n dt).getD k 0 = 0 := by
    intro k hk
    rw [oscillatingSinspace, if_pos (.inl rfl)]
    simp [constList, List.getD_eq_getElem?_getD, hk]
  have hpan : ∀ k < n, ∀ r c, panelAt (p.airplanesAt k) r = some c → c = squareAt 0 := by
    intro k hk r c hc
    obtain ⟨h1, h2⟩ := hp.refs hk
    have hm : r ∈ panelRefs (p.airplanesAt k) := (mem_panelRefs _ _).mpr ⟨c, hc⟩
    rw [h1, List.mem_singleton] at hm
    subst hm
    rw [h2, Option.some.injEq, hz k hk] at hc
    exact hc.symm
  have hop : ∀ k < n, (p.operatingPointAt k).freestreamVelocity = ⟨velocity, 0, 0⟩ := by
    intro k hk
    rw [(hp.step k hk).1]
    exact (level_freestream velocity _).1
  refine ⟨p, s, s₁, hp.made, hp.chordwise, hp.steps, hr, hrun, ?_, ?_,
    fun k hk => ⟨⟨_, (hp.refs hk).2⟩, fun i hi => hp.place hk hi⟩⟩
  · intro r c hc
    rw [hpan 0 hn r c hc, hop 0 hn, squareAt_normal]
    simp [V3.dot]
  · intro j hj r last c hl hc
    rw [hpan _ hj r c hc, hpan j (by omega) r last hl, hop _ hj, squareAt_normal, sub_self, smul_zero, sub_zero]
    simp [V3.dot]

end Ptera
