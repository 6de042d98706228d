import Verif.Lemmas.TrimLemmas
import Verif.Lemmas.PlateSolve

/-!
# C48: steady trim; C49: unsteady trim

The optimizers are arbitrary: every theorem holds for every strategy of choosing the next point.
-/

namespace Ptera

/-- C34 (horseshoe solver): a new solver of the same problem computes the same velocities, strengths and loads, whatever
earlier solvers left on the panels and airplanes. -/
theorem C34_horseshoe_new_solver (problem : SteadyProblem) (hmade : ∀ a ∈ problem.airplanes, a.Made)
    (heap heap' : PanelHeap) (loads loads' : List AirplaneLoads) (s : HorseshoeSolver)
    (h : (HorseshoeSolver.create problem heap loads).run = .ok s) :
    ∃ s', (HorseshoeSolver.create problem heap' loads').run = .ok s' ∧
      s'.strengths = s.strengths ∧ s'.loads = s.loads ∧ s'.streamlines = s.streamlines ∧
      (∀ points, s'.solutionVelocity points = s.solutionVelocity points) ∧
      ∀ r p, panelAt problem.airplanes r = some p →
        (s'.heap r).horseshoe = (s.heap r).horseshoe ∧ (s'.heap r).loads = (s.heap r).loads := by
  obtain ⟨s', h1, h2, h3⟩ := HorseshoeSolver.run_fresh problem (counted_of_made hmade) heap heap' loads loads' h
  refine ⟨s', h1, by rw [h2], by rw [h2], by rw [h2], fun points => by rw [h2]; rfl, ?_⟩
  intro r p hp
  rw [h3 r ((mem_panelRefs _ _).mpr ⟨p, hp⟩)]
  exact ⟨rfl, rfl⟩

/-! ## C48 -/

/-- C48: a steady trim analysis that returns has searched first with the local and then with the global optimizer, each
point being valued by the imbalance that a new solver computes there. It returns the first point whose imbalance is
below the cutoff; it returns four NaNs exactly when both searches ran to their end without one. The problem is left at
the last point evaluated, with the same airplanes, density, viscosity and thrust. -/
theorem C48_result (problem : SteadyProblem) (hmade : ∀ a ∈ problem.airplanes, a.Made) (heap : PanelHeap)
    (loads : List AirplaneLoads) (bounds : TrimBounds) (cutOff : ℝ) (first second : Optimizer TrimArguments)
    (calls₁ calls₂ : ℕ) (result : List (Option ℝ)) (st : TrimState)
    (h : analyzeSteadyTrim problem heap loads bounds cutOff first second calls₁ calls₂ = .ok (result, st)) :
    let rejected := fun x o => HasImbalance problem x o ∧ ¬ Below o cutOff
    let accepted := fun x => (∃ o, HasImbalance problem x o ∧ Below o cutOff) ∧
      result = [some x.velocity, some x.alpha, some x.beta, some x.externalThrust] ∧ st.problem = problem.flownAt x
    ∃ h₁, Searched first rejected h₁ ∧
      ((h₁.length < calls₁ ∧ ∃ x, first h₁ = some x ∧ accepted x) ∨
       (Finished first calls₁ h₁ ∧ ∃ h₂, Searched second rejected h₂ ∧
        ((h₂.length < calls₂ ∧ ∃ x, second h₂ = some x ∧ accepted x) ∨
         (Finished second calls₂ h₂ ∧ result = [none, none, none, none] ∧
          ((h₁ ++ h₂ = [] ∧ st.problem = problem) ∨
            ∃ x o, (h₁ ++ h₂).getLast? = some (x, o) ∧ st.problem = problem.flownAt x))))) := by
  intro rejected accepted
  have hc := counted_of_made hmade
  unfold analyzeSteadyTrim at h
  split at h
  · cases h
  · next airplane rest hcas =>
    have ha : problem.airplanes[0]? = some airplane := by rw [hcas]; rfl
    dsimp only at h
    split_ifs at h
    set objective := steadyObjective cutOff airplane.weight with hobj
    have spec : ∀ (choose : Optimizer TrimArguments) (n : ℕ) (s s' : TrimState) (b : Bool),
        Flown problem s.problem → optimize objective choose n [] s = .ok (s', b) →
        _ := fun choose n s s' b hI ho =>
      optimize_spec objective choose (fun s => Flown problem s.problem) rejected
        (fun x s => (∃ o, HasImbalance problem x o ∧ Below o cutOff) ∧
          s.current = [some x.velocity, some x.alpha, some x.beta, some x.externalThrust] ∧
          s.problem = problem.flownAt x)
        (fun x s => s.problem = problem.flownAt x)
        (fun s x s' hI ho => by
          obtain ⟨h1, o, h2, h3 | h3⟩ := steadyObjective_ok hc ha hI ho
          · exact ⟨.inr ⟨x, h1⟩, ⟨o, h2, h3.2.1⟩, h3.2.2, h1⟩
          · cases h3.1)
        (fun s x s' o hI ho => by
          obtain ⟨h1, o', h2, h3 | h3⟩ := steadyObjective_ok hc ha hI ho
          · cases h3.1
          · have : o' = o := by have := h3.1; simpa using this.symm
            subst this
            exact ⟨.inr ⟨x, h1⟩, ⟨h2, h3.2⟩, h1⟩)
        n [] s s' b hI (by intro i x o hi; simp at hi) ho
    simp only [bind, Except.bind] at h
    cases ho : optimize objective first calls₁ [] { problem, heap, loads, current := nans 4 } with
    | error e => simp [ho] at h
    | ok r =>
      obtain ⟨s1, b1⟩ := r
      simp only [ho] at h
      obtain ⟨hI1, h₁, hs1, hl1, hlast1, hb1, hf1⟩ := spec _ _ _ _ _ (.inl rfl) ho
      simp only [List.nil_append] at hs1 hb1 hf1
      refine ⟨h₁, hs1, ?_⟩
      cases b1 with
      | true =>
        simp only [if_true, pure, Except.pure, Except.ok.injEq, Prod.mk.injEq] at h
        obtain ⟨rfl, rfl⟩ := h
        obtain ⟨hlt, x, hx, hS⟩ := hb1 rfl
        exact .inl ⟨hlt, x, hx, hS⟩
      | false =>
        simp only [Bool.false_eq_true, if_false] at h
        refine .inr ⟨hf1 rfl, ?_⟩
        cases ho2 : optimize objective second calls₂ [] s1 with
        | error e => simp [ho2] at h
        | ok r =>
          obtain ⟨s2, b2⟩ := r
          simp only [ho2] at h
          obtain ⟨hI2, h₂, hs2, hl2, hlast2, hb2, hf2⟩ := spec _ _ _ _ _ hI1 ho2
          simp only [List.nil_append] at hs2 hb2 hf2
          refine ⟨h₂, hs2, ?_⟩
          cases b2 with
          | true =>
            simp only [if_true, pure, Except.pure, Except.ok.injEq, Prod.mk.injEq] at h
            obtain ⟨rfl, rfl⟩ := h
            obtain ⟨hlt, x, hx, hS⟩ := hb2 rfl
            exact .inl ⟨hlt, x, hx, hS⟩
          | false =>
            simp only [Bool.false_eq_true, if_false, pure, Except.pure, Except.ok.injEq, Prod.mk.injEq] at h
            obtain ⟨rfl, rfl⟩ := h
            refine .inr ⟨hf2 rfl, rfl, ?_⟩
            rcases hlast2 with ⟨rfl, e2⟩ | ⟨x, o, hx, e2⟩
            · rw [e2 rfl, List.append_nil]
              rcases hlast1 with ⟨rfl, e1⟩ | ⟨x, o, hx, e1⟩
              · exact .inl ⟨rfl, by rw [e1 rfl]⟩
              · exact .inr ⟨x, o, hx, e1 rfl⟩
            · exact .inr ⟨x, o, by rw [List.getLast?_append, hx]; rfl, e2 rfl⟩

/-- C48: when the optimizers evaluate only points within the bounds, a returned trim condition lies within them. -/
theorem C48_within_bounds (problem : SteadyProblem) (hmade : ∀ a ∈ problem.airplanes, a.Made) (heap : PanelHeap)
    (loads : List AirplaneLoads) (bounds : TrimBounds) (cutOff : ℝ) (first second : Optimizer TrimArguments)
    (calls₁ calls₂ : ℕ) (result : List (Option ℝ)) (st : TrimState)
    (hb : ∀ choose ∈ [first, second], ∀ seen x, choose seen = some x →
      (bounds.velocity.1 ≤ x.velocity ∧ x.velocity ≤ bounds.velocity.2) ∧
      (bounds.alpha.1 ≤ x.alpha ∧ x.alpha ≤ bounds.alpha.2) ∧ (bounds.beta.1 ≤ x.beta ∧ x.beta ≤ bounds.beta.2) ∧
      (bounds.externalThrust.1 ≤ x.externalThrust ∧ x.externalThrust ≤ bounds.externalThrust.2))
    (h : analyzeSteadyTrim problem heap loads bounds cutOff first second calls₁ calls₂ = .ok (result, st)) :
    result = [none, none, none, none] ∨ ∃ v α β t, result = [some v, some α, some β, some t] ∧
      (bounds.velocity.1 ≤ v ∧ v ≤ bounds.velocity.2) ∧ (bounds.alpha.1 ≤ α ∧ α ≤ bounds.alpha.2) ∧
      (bounds.beta.1 ≤ β ∧ β ≤ bounds.beta.2) ∧
      (bounds.externalThrust.1 ≤ t ∧ t ≤ bounds.externalThrust.2) := by
  obtain ⟨h₁, -, ⟨-, x, hx, -, hr, -⟩ | ⟨-, h₂, -, ⟨-, x, hx, -, hr, -⟩ | ⟨-, hr, -⟩⟩⟩ :=
    C48_result problem hmade heap loads bounds cutOff first second calls₁ calls₂ result st h
  · exact .inr ⟨_, _, _, _, hr, hb first (by simp) _ _ hx⟩
  · exact .inr ⟨_, _, _, _, hr, hb second (by simp) _ _ hx⟩
  · exact .inl hr

/-- C48: the analysis raises its own exception exactly when the problem's velocity, angles or thrust lie outside of the
bounds; otherwise it can only fail with the singular matrix of a flow that cannot be solved. -/
theorem C48_raises (problem : SteadyProblem) (hmade : ∀ a ∈ problem.airplanes, a.Made) (hne : problem.airplanes ≠ [])
    (heap : PanelHeap) (loads : List AirplaneLoads) (bounds : TrimBounds) (cutOff : ℝ)
    (first second : Optimizer TrimArguments) (calls₁ calls₂ : ℕ) :
    let op := problem.operatingPoint
    let run := analyzeSteadyTrim problem heap loads bounds cutOff first second calls₁ calls₂
    (run = .error .exception ↔
      (op.velocity < bounds.velocity.1 ∨ bounds.velocity.2 < op.velocity) ∨
      (op.alpha < bounds.alpha.1 ∨ bounds.alpha.2 < op.alpha) ∨
      (op.beta < bounds.beta.1 ∨ bounds.beta.2 < op.beta) ∨
      (op.externalThrust < bounds.externalThrust.1 ∨ bounds.externalThrust.2 < op.externalThrust)) ∧
    (∀ e, run = .error e → e ≠ .exception →
      e = .linAlgError ∧ ∃ x, (HorseshoeSolver.create (problem.flownAt x)).run = .error .linAlgError) := by
  intro op run
  have hc := counted_of_made hmade
  have hout : ∀ x b, outside x b = true ↔ (x < b.1 ∨ b.2 < x) := fun x b => by simp [outside]
  have key : ∀ e, run = .error e →
      (e = .exception ∧ ((op.velocity < bounds.velocity.1 ∨ bounds.velocity.2 < op.velocity) ∨
      (op.alpha < bounds.alpha.1 ∨ bounds.alpha.2 < op.alpha) ∨
      (op.beta < bounds.beta.1 ∨ bounds.beta.2 < op.beta) ∨
      (op.externalThrust < bounds.externalThrust.1 ∨ bounds.externalThrust.2 < op.externalThrust))) ∨
      (e = .linAlgError ∧ ∃ x, (HorseshoeSolver.create (problem.flownAt x)).run = .error .linAlgError) := by
    intro e h
    unfold run analyzeSteadyTrim at h
    split at h
    · next hcas => exact absurd hcas hne
    · next airplane rest hcas =>
      have ha : problem.airplanes[0]? = some airplane := by rw [hcas]; rfl
      dsimp only at h
      split_ifs at h with h1 h2 h3 h4
      · cases h; exact .inl ⟨rfl, .inl ((hout _ _).mp h1)⟩
      · cases h; exact .inl ⟨rfl, .inr (.inl ((hout _ _).mp h2))⟩
      · cases h; exact .inl ⟨rfl, .inr (.inr (.inl ((hout _ _).mp h3)))⟩
      · cases h; exact .inl ⟨rfl, .inr (.inr (.inr ((hout _ _).mp h4)))⟩
      · right
        have hok : ∀ st x st' ev, Flown problem st.problem →
            steadyObjective cutOff airplane.weight st x = .ok (st', ev) → Flown problem st'.problem :=
          fun st x st' ev hI ho => .inr ⟨x, (steadyObjective_ok hc ha hI ho).1⟩
        have herr : ∀ st x e, Flown problem st.problem → steadyObjective cutOff airplane.weight st x = .error e →
            e = .linAlgError ∧ ∃ x, (HorseshoeSolver.create (problem.flownAt x)).run = .error .linAlgError :=
          fun st x e hI ho => ⟨(steadyObjective_error hc ha hI ho).1, x, (steadyObjective_error hc ha hI ho).2⟩
        simp only [bind, Except.bind] at h
        cases ho : optimize (steadyObjective cutOff airplane.weight) first calls₁ []
            { problem, heap, loads, current := nans 4 } with
        | error e' =>
          simp only [ho, Except.error.injEq] at h
          subst h
          exact optimize_error _ first (fun s => Flown problem s.problem) _ hok herr calls₁ _ _ _ (.inl rfl) ho
        | ok r =>
          obtain ⟨s1, b1⟩ := r
          have hI1 := (optimize_spec _ first (fun s => Flown problem s.problem) (fun _ _ => True) (fun _ _ => True)
            (fun _ _ => True) (fun st x st' hI ho => ⟨hok _ _ _ _ hI ho, trivial⟩)
            (fun st x st' o hI ho => ⟨hok _ _ _ _ hI ho, trivial, trivial⟩) calls₁ [] _ _ _ (.inl rfl)
            (by intro i x o hi; simp at hi) ho).1
          simp only [ho] at h
          cases b1 with
          | true => simp [pure, Except.pure] at h
          | false =>
            simp only [Bool.false_eq_true, if_false] at h
            cases ho2 : optimize (steadyObjective cutOff airplane.weight) second calls₂ [] s1 with
            | error e' =>
              simp only [ho2, Except.error.injEq] at h
              subst h
              exact optimize_error _ second (fun s => Flown problem s.problem) _ hok herr calls₂ _ _ _ hI1 ho2
            | ok r =>
              obtain ⟨s2, b2⟩ := r
              simp only [ho2] at h
              cases b2 <;> simp [pure, Except.pure] at h
  refine ⟨⟨fun h => ?_, fun h => ?_⟩, fun e h he => ?_⟩
  · rcases key _ h with ⟨-, hb⟩ | ⟨he, -⟩
    · exact hb
    · cases he
  · unfold run analyzeSteadyTrim
    split
    · next hcas => exact absurd hcas hne
    · simp only [← hout] at h
      dsimp only
      split_ifs with h1 h2 h3 h4
      · rfl
      · rfl
      · rfl
      · rfl
      · rcases h with h | h | h | h
        · exact absurd h h1
        · exact absurd h h2
        · exact absurd h h3
        · exact absurd h h4
  · rcases key _ h with ⟨he', -⟩ | h'
    · exact absurd he' he
    · exact h'

/-- C48: what a returned trim condition means for the forces. At a point with imbalance below the cutoff the drag
differs from the thrust, the lift from the weight, and the side force from zero by less than twice the cutoff times
dynamic pressure and reference area; likewise the moments. -/
theorem C48_balance (problem : SteadyProblem) (hmade : ∀ a ∈ problem.airplanes, a.Made) (x : TrimArguments)
    (o : Option ℝ) (cutOff : ℝ) (hi : HasImbalance problem x o) (hb : Below o cutOff) :
    ∃ (solver : HorseshoeSolver) (airplane : Airplane) (loads : AirplaneLoads),
      (HorseshoeSolver.create (problem.flownAt x)).run = .ok solver ∧
      problem.airplanes[0]? = some airplane ∧ solver.loads[0]? = some loads ∧
      let q := problem.operatingPoint.density * x.velocity ^ 2 / 2
      let drag := -loads.forceWind.x
      let lift := -loads.forceWind.z
      |drag - x.externalThrust| < 2 * cutOff * |q * airplane.sRef| ∧
      |loads.forceWind.y| < 2 * cutOff * |q * airplane.sRef| ∧
      |lift - airplane.weight| < 2 * cutOff * |q * airplane.sRef| ∧
      |loads.momentWind.x| < 2 * cutOff * |q * airplane.sRef * airplane.bRef| ∧
      |loads.momentWind.y| < 2 * cutOff * |q * airplane.sRef * airplane.cRef| ∧
      |loads.momentWind.z| < 2 * cutOff * |q * airplane.sRef * airplane.bRef| := by
  obtain ⟨s, a, L, hs, ha, hL, hu, hd⟩ := hi
  obtain ⟨v, rfl, hv⟩ := hb
  refine ⟨s, a, L, hs, ha, hL, ?_⟩
  have hdef : ¬ (problem.operatingPoint.density * x.velocity ^ 2 / 2 = 0 ∨ a.sRef = 0 ∨ a.cRef = 0 ∨ a.bRef = 0) :=
    fun h => by cases hu h
  have hvv := hd hdef
  simp only [Option.some.injEq] at hvv
  push Not at hdef
  obtain ⟨hq, hS, hcr, hbr⟩ := hdef
  have hLe : L = airplaneLoads (problem.flownAt x).operatingPoint s.heap a 0 := by
    obtain ⟨y, _, _, rfl⟩ := HorseshoeSolver.run_result (s := HorseshoeSolver.create (problem.flownAt x))
      (counted_of_made hmade) (by simp [HorseshoeSolver.create]) hs
    have hl : ((HorseshoeSolver.create (problem.flownAt x)).solved y).calculateForces.calculateStreamlines.loads
        = problem.airplanes.zipIdx.map fun t => airplaneLoads (problem.flownAt x).operatingPoint
          ((HorseshoeSolver.create (problem.flownAt x)).solved y).calculateForces.calculateStreamlines.heap t.1 t.2 := rfl
    rw [hl] at hL
    simp only [List.getElem?_map, List.getElem?_zipIdx, ha, Option.map_some, Option.some.injEq, zero_add] at hL
    exact hL.symm
  set q := problem.operatingPoint.density * x.velocity ^ 2 / 2 with hqdef
  have hdp : (problem.flownAt x).operatingPoint.dynamicPressure = q := by
    simp only [OperatingPoint.dynamicPressure, SteadyProblem.flownAt, hqdef]; ring
  have hF : L.forceCoefficients = ⟨-L.forceWind.x / q / a.sRef, L.forceWind.y / q / a.sRef,
      -L.forceWind.z / q / a.sRef⟩ := by rw [hLe, ← hdp]; rfl
  have hM : L.momentCoefficients = ⟨L.momentWind.x / q / a.sRef / a.bRef, L.momentWind.y / q / a.sRef / a.cRef,
      L.momentWind.z / q / a.sRef / a.bRef⟩ := by rw [hLe, ← hdp]; rfl
  set net : V3 := L.forceCoefficients - ⟨x.externalThrust / (q * a.sRef), 0, a.weight / (q * a.sRef)⟩ with hnet
  have hn1 := V3.norm_nonneg net
  have hn2 := V3.norm_nonneg L.momentCoefficients
  have h1 : net.norm < 2 * cutOff := by linarith
  have h2 : L.momentCoefficients.norm < 2 * cutOff := by linarith
  have comp : ∀ (w : V3), |w.x| ≤ w.norm ∧ |w.y| ≤ w.norm ∧ |w.z| ≤ w.norm := by
    intro w
    unfold V3.norm V3.dot
    refine ⟨Real.abs_le_sqrt ?_, Real.abs_le_sqrt ?_, Real.abs_le_sqrt ?_⟩ <;>
      nlinarith [sq_nonneg w.x, sq_nonneg w.y, sq_nonneg w.z]
  have scale : ∀ (t d c : ℝ), d ≠ 0 → |t / d| < c → |t| < c * |d| := by
    intro t d c hd ht
    rw [abs_div, div_lt_iff₀ (abs_pos.mpr hd)] at ht
    exact ht
  have hqS : q * a.sRef ≠ 0 := mul_ne_zero hq hS
  have nx : net.x = (-L.forceWind.x - x.externalThrust) / (q * a.sRef) := by
    simp only [hnet, V3.sub_x, hF]; field_simp
  have ny : net.y = L.forceWind.y / (q * a.sRef) := by
    simp only [hnet, V3.sub_y, hF]; field_simp; ring
  have nz : net.z = (-L.forceWind.z - a.weight) / (q * a.sRef) := by
    simp only [hnet, V3.sub_z, hF]; field_simp
  have mx : L.momentCoefficients.x = L.momentWind.x / (q * a.sRef * a.bRef) := by rw [hM]; simp only [div_div]
  have my : L.momentCoefficients.y = L.momentWind.y / (q * a.sRef * a.cRef) := by rw [hM]; simp only [div_div]
  have mz : L.momentCoefficients.z = L.momentWind.z / (q * a.sRef * a.bRef) := by rw [hM]; simp only [div_div]
  have cF := comp net
  have cM := comp L.momentCoefficients
  rw [nx, ny, nz] at cF
  rw [mx, my, mz] at cM
  exact ⟨scale _ _ _ hqS (cF.1.trans_lt h1), scale _ _ _ hqS (cF.2.1.trans_lt h1), scale _ _ _ hqS (cF.2.2.trans_lt h1),
    scale _ _ _ (mul_ne_zero hqS hbr) (cM.1.trans_lt h2), scale _ _ _ (mul_ne_zero hqS hcr) (cM.2.1.trans_lt h2),
    scale _ _ _ (mul_ne_zero hqS hbr) (cM.2.2.trans_lt h2)⟩

/-! ## C49 -/

/-- C49 fails: no evaluation of the unsteady objective ever returns a value or accepts a point; when the simulation
itself finishes, reading its results raises an `AttributeError`. -/
theorem C49_evaluation_fails (cutOff : ℝ) (airplane : AirplaneMovement) (st : UnsteadyTrimState)
    (x : UnsteadyTrimArguments) :
    (∃ e, unsteadyObjective cutOff airplane st x = .error e) ∧
    ∀ s, unsteadyTrimSolver airplane
        { st.operatingPoint with velocity := x.velocity, alpha := x.alpha, beta := x.beta } = .ok s →
      unsteadyObjective cutOff airplane st x = .error .attributeError := by
  have hread : ∀ s : UnsteadySolver,
      readResults s "final_total_near_field_force_coefficients_wind_axes" = .error .attributeError := by
    intro s
    simp [readResults, unsteadyProblemAttributes]
  have hmain : ∀ s, unsteadyTrimSolver airplane
        { st.operatingPoint with velocity := x.velocity, alpha := x.alpha, beta := x.beta } = .ok s →
      unsteadyObjective cutOff airplane st x = .error .attributeError := by
    intro s hs
    unfold unsteadyObjective
    simp only [bind, Except.bind, hs, hread]
  refine ⟨?_, hmain⟩
  cases h : unsteadyTrimSolver airplane
      { st.operatingPoint with velocity := x.velocity, alpha := x.alpha, beta := x.beta } with
  | ok s => exact ⟨_, hmain s h⟩
  | error e => exact ⟨e, by unfold unsteadyObjective; simp only [bind, Except.bind, h]⟩

/-- C49 fails: whatever the optimizers do, `analyze_unsteady_trim` never returns a trim condition. As soon as an
optimizer evaluates a point it raises; without any evaluation it returns three NaNs. -/
theorem C49_never_trims (airplane : AirplaneMovement) (op : OperatingPoint) (cutOff : ℝ)
    (first second : Optimizer UnsteadyTrimArguments) (calls₁ calls₂ : ℕ) :
    let idle := fun (choose : Optimizer UnsteadyTrimArguments) calls => calls = 0 ∨ choose [] = none
    let run := analyzeUnsteadyTrim airplane op cutOff first second calls₁ calls₂
    (idle first calls₁ ∧ idle second calls₂ → run = .ok ([none, none, none], op)) ∧
    (¬ (idle first calls₁ ∧ idle second calls₂) → ∃ e, run = .error e) := by
  intro idle run
  have hidle : ∀ (choose : Optimizer UnsteadyTrimArguments) calls st, idle choose calls →
      optimize (unsteadyObjective cutOff airplane) choose calls [] st = .ok (st, false) := by
    intro choose calls st h
    cases calls with
    | zero => rfl
    | succ n =>
      rcases h with h | h
      · cases h
      · simp [optimize, h]
  have hbusy : ∀ (choose : Optimizer UnsteadyTrimArguments) calls st, ¬ idle choose calls →
      ∃ e, optimize (unsteadyObjective cutOff airplane) choose calls [] st = .error e := by
    intro choose calls st h
    cases calls with
    | zero => exact absurd (.inl rfl) h
    | succ n =>
      cases hx : choose [] with
      | none => exact absurd (.inr hx) h
      | some x =>
        obtain ⟨e, he⟩ := (C49_evaluation_fails cutOff airplane st x).1
        exact ⟨e, by simp [optimize, hx, he]⟩
  unfold run analyzeUnsteadyTrim
  by_cases h1 : idle first calls₁
  · by_cases h2 : idle second calls₂
    · refine ⟨fun _ => ?_, fun h => absurd ⟨h1, h2⟩ h⟩
      simp [hidle _ _ _ h1, hidle _ _ _ h2, bind, Except.bind, pure, Except.pure, nans]
    · refine ⟨fun h => absurd h.2 h2, fun _ => ?_⟩
      obtain ⟨e, he⟩ := hbusy second calls₂ { operatingPoint := op, current := nans 3 } h2
      exact ⟨e, by simp [hidle _ _ _ h1, he, bind, Except.bind]⟩
  · refine ⟨fun h => absurd h.1 h1, fun _ => ?_⟩
    obtain ⟨e, he⟩ := hbusy first calls₁ { operatingPoint := op, current := nans 3 } h1
    exact ⟨e, by simp [he, bind, Except.bind]⟩

end Ptera
