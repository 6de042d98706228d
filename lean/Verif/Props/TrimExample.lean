import Verif.Props.Trim
import Verif.Props.UnsteadyExample

/-! Non-vacuity of the theorems about trim (C48, C49): a square flat plate with one panel. -/

namespace Ptera

/-- C48: with a loose cutoff the plate is trimmed at the first point evaluated; with the cutoff zero both searches end
without a trim condition. The hypotheses of the C48 theorems hold of both analyses. -/
example : ∃ (problem : SteadyProblem) (bounds : TrimBounds) (cutOff : ℝ) (once never : Optimizer TrimArguments)
    (x : TrimArguments), (∀ a ∈ problem.airplanes, a.Made) ∧
    (∃ st, analyzeSteadyTrim problem PanelHeap.fresh [] bounds cutOff once never 5 5
      = .ok ([some x.velocity, some x.alpha, some x.beta, some x.externalThrust], st)) ∧
    (∃ st, analyzeSteadyTrim problem PanelHeap.fresh [] bounds 0 once once 5 5 = .ok ([none, none, none, none], st)) ∧
    (∃ o, HasImbalance problem x o ∧ Below o cutOff) ∧
    analyzeSteadyTrim problem PanelHeap.fresh [] { bounds with alpha := (7, 9) } cutOff once once 5 5
      = .error .exception := by
  obtain ⟨a, hmade, hrefs, hp, hspan, hS, hC, hB, _⟩ := plate_airplane
  let op : OperatingPoint := { density := 1.225, velocity := 10, alpha := 5, beta := 0 }
  let problem : SteadyProblem := ⟨[a], op⟩
  let x : TrimArguments := ⟨12, 3, 0, 1⟩
  let bounds : TrimBounds := ⟨(5, 20), (0, 10), (-5, 5), (0, 10)⟩
  let once : Optimizer TrimArguments := fun seen => if seen.isEmpty then some x else none
  have hd : ∀ y : TrimArguments, y = x → |((problem.flownAt y).operatingPoint.freestreamDirection).y|
      ≤ ((problem.flownAt y).operatingPoint.freestreamDirection).x := by
    rintro _ rfl
    exact flies_ahead 1.225 12 3 (by norm_num)
  have hmade' : ∀ b ∈ problem.airplanes, b.Made := by simpa [problem] using hmade
  have hc := counted_of_made hmade'
  -- every evaluation at `x` finishes, with the same number
  obtain ⟨s0, hs0, _⟩ := plate_horseshoe_run (problem.flownAt x).operatingPoint hmade hrefs hp hspan (hd x rfl) PanelHeap.fresh []
  have hs0' : (HorseshoeSolver.create (problem.flownAt x)).run = .ok s0 := hs0
  have hlen := HorseshoeSolver.run_loads_length (problem.flownAt x) hc _ _ hs0'
  obtain ⟨L, hL⟩ : ∃ L, s0.loads = [L] := List.length_eq_one_iff.mp hlen
  have hdef : ¬ ((problem.flownAt x).operatingPoint.dynamicPressure = 0 ∨ a.sRef = 0 ∨ a.cRef = 0 ∨ a.bRef = 0) := by
    rw [hS, hC, hB]
    simp only [OperatingPoint.dynamicPressure, SteadyProblem.flownAt, problem, x, op]
    norm_num
  obtain ⟨v, hv⟩ : ∃ v, imbalance (problem.flownAt x).operatingPoint a L a.weight x.externalThrust = some v := by
    unfold imbalance
    simp only
    rw [if_neg hdef]
    exact ⟨_, rfl⟩
  have hv0 : 0 ≤ v := by
    unfold imbalance at hv
    simp only at hv
    rw [if_neg hdef, Option.some.injEq] at hv
    rw [← hv]
    positivity
  have heval : ∀ (st : TrimState) (c : ℝ), Flown problem st.problem → ∃ st', Flown problem st'.problem ∧
      steadyObjective c a.weight st x = .ok (st', if belowCutOff (some v) c then .stop else .value (some v)) ∧
      (belowCutOff (some v) c →
        st'.current = [some x.velocity, some x.alpha, some x.beta, some x.externalThrust]) := by
    intro st c hst
    obtain ⟨s, hs, heq, _⟩ := HorseshoeSolver.run_fresh (problem.flownAt x) hc PanelHeap.fresh st.heap [] st.loads hs0'
    have hl : s.loads = [L] := by rw [heq]; exact hL
    rw [steadyObjective_eq c a.weight hst x, hs]
    have has : (problem.flownAt x).airplanes = [a] := rfl
    simp only [steadyOutcome, has, hl, hv]
    by_cases hb : belowCutOff (some v) c = true
    · simp only [hb, if_true]
      exact ⟨_, .inr ⟨x, rfl⟩, rfl, fun _ => rfl⟩
    · simp only [hb]
      exact ⟨_, .inr ⟨x, rfl⟩, rfl, fun h => by simp at h⟩
  have hlow : belowCutOff (some v) (v + 1) = true := by simp [belowCutOff]
  have hhigh : belowCutOff (some v) 0 = false := by simpa [belowCutOff] using hv0
  have hin : outside op.velocity bounds.velocity = false ∧ outside op.alpha bounds.alpha = false ∧
      outside op.beta bounds.beta = false ∧ outside op.externalThrust bounds.externalThrust = false := by
    refine ⟨?_, ?_, ?_, ?_⟩ <;> simp [outside, op, bounds] <;> norm_num
  obtain ⟨i1, i2, i3, i4⟩ := hin
  have hfail : ∀ st, Flown problem st.problem → ∃ st', Flown problem st'.problem ∧
      optimize (steadyObjective 0 a.weight) once 5 [] st = .ok (st', false) := by
    intro st hst
    obtain ⟨st', h1, h2, _⟩ := heval st 0 hst
    rw [hhigh] at h2
    refine ⟨st', h1, ?_⟩
    simp [optimize, once, h2]
  refine ⟨problem, bounds, v + 1, once, fun _ => none, x, hmade', ?_, ?_, ?_, ?_⟩
  · obtain ⟨st', h1, h2, h3⟩ := heval ⟨problem, PanelHeap.fresh, [], nans 4⟩ (v + 1) (.inl rfl)
    rw [hlow] at h2
    refine ⟨st', ?_⟩
    have ho : optimize (steadyObjective (v + 1) a.weight) once 5 [] ⟨problem, PanelHeap.fresh, [], nans 4⟩
        = .ok (st', true) := by
      simp only [if_true] at h2
      simp [optimize, once, h2]
    have := h3 hlow
    simp [analyzeSteadyTrim, problem, i1, i2, i3, i4, bind, Except.bind, pure, Except.pure]
    rw [show (⟨⟨[a], op⟩, PanelHeap.fresh, [], nans 4⟩ : TrimState) = ⟨problem, PanelHeap.fresh, [], nans 4⟩ from rfl, ho]
    simp [this]
  · obtain ⟨st1, h1, o1⟩ := hfail ⟨problem, PanelHeap.fresh, [], nans 4⟩ (.inl rfl)
    obtain ⟨st2, h2, o2⟩ := hfail st1 h1
    refine ⟨st2, ?_⟩
    simp [analyzeSteadyTrim, problem, i1, i2, i3, i4, bind, Except.bind, pure, Except.pure]
    rw [show (⟨⟨[a], op⟩, PanelHeap.fresh, [], nans 4⟩ : TrimState) = ⟨problem, PanelHeap.fresh, [], nans 4⟩ from rfl, o1]
    simp [o2, nans]
  · refine ⟨some v, ⟨s0, a, L, hs0', rfl, by rw [hL]; rfl, ?_⟩, v, rfl, by linarith⟩
    rw [← hv]
    exact imbalance_spec (problem.flownAt x).operatingPoint a L x.externalThrust
  · rw [(C48_raises problem hmade' (by simp [problem]) PanelHeap.fresh [] _ (v + 1) once once 5 5).1]
    right; left; left
    show (5 : ℝ) < 7
    norm_num

/-- C49: the simulation of a plate at rest finishes with the default time step and number of steps, so that its trim
analysis raises an `AttributeError` at the first evaluation. -/
example (density : ℝ) : ∃ (airplane : AirplaneMovement) (op : OperatingPoint) (x : UnsteadyTrimArguments),
    (∃ s, unsteadyTrimSolver airplane { op with velocity := x.velocity, alpha := x.alpha, beta := x.beta } = .ok s) ∧
    analyzeUnsteadyTrim airplane op 0.01 (fun _ => some x) (fun _ => some x) 100 100 = .error .attributeError := by
  obtain ⟨w, hw, h⟩ := heaving_movement 0 0
  let a : Airplane := { wings := [w], xyzRef := 0, weight := 1, sRef := 1, cRef := 1, bRef := 1, numPanels := 1 }
  let op : OperatingPoint := { density, velocity := 10, alpha := 5, beta := 0 }
  let am : AirplaneMovement := { base := a, wingMovements := [heave w 0 0] }
  let x : UnsteadyTrimArguments := ⟨10, 5, 0⟩
  obtain ⟨hP, mv, p, h1, h2, hp, _⟩ := h a 10 (by norm_num) (1 / 1 / 10) op true
  have hdef : Movement.create [am] { base := op, velocity := {} } = .ok mv := by
    rw [← h1]
    have hdt : chooseDeltaTime [am] { base := op } none = .ok (1 / 1 / 10) := by
      simp [chooseDeltaTime, defaultDeltaTime, am, a, op, hw, bind, Except.bind, pure, Except.pure]
    have hn : runLength [am] { base := op } (1 / 1 / 10) none none none = .ok 10 := by
      have hP' : movementMaxPeriod [am] { base := op } = .ok (max 0 0) := hP
      simp only [runLength, hP', bind, Except.bind, pure, Except.pure, max_self, if_true]
      have hceil : ⌈((Option.none.getD 10 : ℕ) : ℝ) * 1 / (1 / 1 / 10 * op.velocity)⌉ = 10 := by
        have : ((Option.none.getD 10 : ℕ) : ℝ) * 1 / (1 / 1 / 10 * op.velocity) = ((10 : ℤ) : ℝ) := by
          simp [op]
        rw [this, Int.ceil_intCast]
      simp only [List.map_cons, List.map_nil, pyMax, am, a, List.foldl_nil]
      rw [hceil]
      rfl
    unfold Movement.create
    rw [hdt]
    simp only [bind, Except.bind]
    rw [hn]
    simp only [checkRunLength, chooseDeltaTime, runLength, Option.isSome_none, Bool.false_eq_true, if_false, bind,
      Except.bind, pure, Except.pure]
    rfl
  obtain ⟨s, hs⟩ := hp.create (by norm_num)
  obtain ⟨s', hs'⟩ := hp.run (by norm_num) (by simp [op]) (flies_ahead density 10 5 (by norm_num)) (.fresh hs) true true
  have hfin : unsteadyTrimSolver am { op with velocity := x.velocity, alpha := x.alpha, beta := x.beta } = .ok s' := by
    unfold unsteadyTrimSolver
    have e : ({ op with velocity := x.velocity, alpha := x.alpha, beta := x.beta } : OperatingPoint) = op := rfl
    simp only [e, hdef, h2, hs, bind, Except.bind]
    exact hs'
  refine ⟨am, op, x, ⟨s', hfin⟩, ?_⟩
  have hf := (C49_evaluation_fails 0.01 am { operatingPoint := op, current := nans 3 } x).2 s' hfin
  simp [analyzeUnsteadyTrim, optimize, hf, bind, Except.bind]

end Ptera
