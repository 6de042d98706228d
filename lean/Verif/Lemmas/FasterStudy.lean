import Verif.Lemmas.Faster
import Verif.Props.MirrorRuns

/-! Helper lemmas: the same study at another speed. -/

namespace Ptera

variable {c : ℝ}

theorem stepTimes_faster (n : ℕ) (dt : ℝ) : stepTimes n (dt / c) = (stepTimes n dt).map (· / c) := by
  unfold stepTimes linspace
  rw [List.map_map]
  apply List.map_congr_left
  intro k _
  simp only [Function.comp]
  ring

theorem constList_mul (n : ℕ) (v : ℝ) : constList n (c * v) = (constList n v).map (c * ·) := by
  simp [constList]

/-- An oscillation that is faster, larger or both, seen at the times of the steps. -/
theorem values_faster (hc : 0 < c) (o : Oscillation) (base : ℝ) (n : ℕ) (dt e : ℝ) (he : e ≠ 0) :
    ({ o.faster c with amplitude := e * o.amplitude } : Oscillation).values (e * base) n (dt / c)
      = (o.values base n dt).map (List.map (e * ·)) := by
  have h1 : (e * o.amplitude = 0 ∨ o.period / c = 0) ↔ (o.amplitude = 0 ∨ o.period = 0) := by
    simp [he, hc.ne']
  have h2 : ∀ t : ℝ, 2 * Real.pi / (o.period / c) * (t / c) = 2 * Real.pi / o.period * t := by
    intro t
    rcases eq_or_ne o.period 0 with h | h
    · simp [h]
    · field_simp
  unfold Oscillation.values oscillatingSinspace oscillatingLinspace
  simp only [Oscillation.faster, h1, sub_zero, stepTimes_faster, List.map_map, Function.comp_def, h2]
  by_cases s1 : o.spacing = "sine"
  · rw [if_pos s1, if_pos s1]
    split
    · rw [constList_mul]; rfl
    · simp only [Except.map, List.map_map, Function.comp_def, mul_add, mul_assoc]
  · rw [if_neg s1, if_neg s1]
    by_cases s2 : o.spacing = "uniform"
    · rw [if_pos s2, if_pos s2]
      split
      · rw [constList_mul]; rfl
      · simp only [Except.map, List.map_map, Function.comp_def, mul_add, mul_assoc]
    · rw [if_neg s2, if_neg s2]
      rfl

theorem values_same (hc : 0 < c) (o : Oscillation) (base : ℝ) (n : ℕ) (dt : ℝ) :
    (o.faster c).values base n (dt / c) = o.values base n dt := by
  have := values_faster hc o base n dt 1 one_ne_zero
  simp only [_root_.one_mul] at this
  have h2 : (o.values base n dt).map (List.map fun x => x) = o.values base n dt := by
    cases o.values base n dt with
    | error e => rfl
    | ok l => simp [Except.map]
  rw [h2] at this
  exact this

theorem valuesCustom_same (hc : 0 < c) (o : Oscillation) (base : ℝ) (n : ℕ) (dt : ℝ) :
    (o.faster c).valuesCustom base n (dt / c) = o.valuesCustom base n dt := by
  have hv := values_same hc o base n dt
  have h1 : (o.amplitude = 0 ∨ o.period / c = 0) ↔ (o.amplitude = 0 ∨ o.period = 0) := by
    simp [hc.ne']
  have h2 : ∀ t : ℝ, 2 * Real.pi / (o.period / c) * (t / c) = 2 * Real.pi / o.period * t := by
    intro t
    rcases eq_or_ne o.period 0 with h | h
    · simp [h]
    · field_simp
  unfold Oscillation.valuesCustom oscillatingSinspace oscillatingLinspace oscillatingCustomspace
  simp only [Oscillation.faster, h1, sub_zero, stepTimes_faster, List.map_map, Function.comp_def, h2]

theorem section_generate_same (hc : 0 < c) (m : WingCrossSectionMovement) (n : ℕ) (dt : ℝ) (last : List V3) (v : Bool)
    (span sweep heave : ℝ) :
    (m.faster c).generate n (dt / c) last v span sweep heave = m.generate n dt last v span sweep heave := by
  unfold WingCrossSectionMovement.generate
  simp only [WingCrossSectionMovement.faster, valuesCustom_same hc]

theorem sectionHistories_same (hc : 0 < c) (n : ℕ) (dt : ℝ) (ms : List WingCrossSectionMovement) :
    ∀ last, WingMovement.sectionHistories n (dt / c) last (ms.map (·.faster c))
      = WingMovement.sectionHistories n dt last ms := by
  have hz : ∀ x : ℝ, x / c ≠ 0 ↔ x ≠ 0 := fun x => by simp [hc.ne']
  have h1 : ∀ last m, WingMovement.sectionHistory n (dt / c) last (WingCrossSectionMovement.faster c m)
      = WingMovement.sectionHistory n dt last m := by
    intro last m
    unfold WingMovement.sectionHistory
    simp only [section_generate_same hc]
    rcases last with - | - | ⟨first, rest⟩
    · simp only [WingCrossSectionMovement.faster, Oscillation.faster, hz]
    · rfl
    · rfl
  induction ms with
  | nil => intro last; rfl
  | cons m ms ih =>
    intro last
    simp only [List.map_cons, WingMovement.sectionHistories, h1, ih]

theorem wing_generate_same (hc : 0 < c) (m : WingMovement) (n : ℕ) (dt : ℝ) :
    (m.faster c).generate n (dt / c) = m.generate n dt := by
  unfold WingMovement.generate
  simp only [WingMovement.faster, values_same hc, sectionHistories_same hc]

theorem airplane_generate_same (hc : 0 < c) (m : AirplaneMovement) (n : ℕ) (dt : ℝ) :
    (m.faster c).generate n (dt / c) = m.generate n dt := by
  unfold AirplaneMovement.generate
  simp only [AirplaneMovement.faster, values_same hc, List.mapM_map, Function.comp_def, wing_generate_same hc]

theorem point_generate_faster (hc : 0 < c) (om : OperatingPointMovement) (n : ℕ) (dt : ℝ) :
    (om.faster c).generate n (dt / c)
      = (om.generate n dt).map (List.map fun op => { op with velocity := c * op.velocity }) := by
  unfold OperatingPointMovement.generate
  simp only [OperatingPointMovement.faster, values_faster hc _ _ _ _ _ hc.ne']
  cases om.velocity.values om.base.velocity n dt with
  | error e => rfl
  | ok vs =>
    simp only [Except.map, bind, Except.bind, pure, Except.pure, List.map_map]
    congr 1
    apply List.map_congr_left
    intro k _
    simp only [Function.comp]
    congr 1
    simp only [List.getD_eq_getElem?_getD, List.getElem?_map]
    cases vs[k]? <;> simp

/-- The largest of numbers divided by `c`. -/
theorem pyMax_div (hc : 0 < c) (l : List ℝ) : pyMax (l.map (· / c)) = (pyMax l).map (· / c) := by
  cases l with
  | nil => rfl
  | cons a l =>
    simp only [List.map_cons, pyMax, Except.map, Except.ok.injEq]
    induction l generalizing a with
    | nil => rfl
    | cons b l ih =>
      simp only [List.map_cons, List.foldl_cons]
      rw [max_div_div_right hc.le, ih]

theorem mapM_map_ok {α β : Type} (f g : α → Except Err β) (h : β → β) (l : List α) (hfg : ∀ a ∈ l, g a = (f a).map h) :
    l.mapM g = (l.mapM f).map (List.map h) := by
  induction l with
  | nil => rfl
  | cons a l ih =>
    rw [List.mapM_cons, List.mapM_cons, hfg a (by simp), ih fun b hb => hfg b (by simp [hb])]
    cases f a with
    | error e => rfl
    | ok b =>
      cases l.mapM f with
      | error e => rfl
      | ok bs => rfl

theorem wing_maxPeriod_faster (hc : 0 < c) (m : WingMovement) : (m.faster c).maxPeriod = m.maxPeriod.map (· / c) := by
  unfold WingMovement.maxPeriod
  have e : (m.faster c).sectionMovements.map (·.maxPeriod) = (m.sectionMovements.map (·.maxPeriod)).map (· / c) := by
    simp only [WingMovement.faster, List.map_map]
    apply List.map_congr_left
    intro a _
    simp only [Function.comp, WingCrossSectionMovement.maxPeriod, WingCrossSectionMovement.faster, Oscillation.faster,
      max_div_div_right hc.le]
  rw [e, pyMax_div hc]
  cases pyMax (m.sectionMovements.map (·.maxPeriod)) with
  | error e => rfl
  | ok x =>
    simp only [Except.map, bind, Except.bind, pure, Except.pure, WingMovement.faster, Oscillation.faster,
      max_div_div_right hc.le]

theorem airplane_maxPeriod_faster (hc : 0 < c) (m : AirplaneMovement) :
    (m.faster c).maxPeriod = m.maxPeriod.map (· / c) := by
  unfold AirplaneMovement.maxPeriod
  have e : (m.faster c).wingMovements.mapM (fun w : WingMovement => w.maxPeriod) = (m.wingMovements.mapM (fun w : WingMovement => w.maxPeriod)).map (List.map (· / c)) := by
    simp only [AirplaneMovement.faster, List.mapM_map]
    exact mapM_map_ok _ _ _ _ fun a _ => wing_maxPeriod_faster hc a
  rw [e]
  cases m.wingMovements.mapM (fun w : WingMovement => w.maxPeriod) with
  | error e => rfl
  | ok x =>
    simp only [Except.map, bind, Except.bind, pyMax_div hc]
    cases pyMax x with
    | error e => rfl
    | ok y =>
      simp only [pure, Except.pure, AirplaneMovement.faster, Oscillation.faster, max_div_div_right hc.le]

theorem movement_maxPeriod_faster (hc : 0 < c) (ams : List AirplaneMovement) (om : OperatingPointMovement) :
    movementMaxPeriod (ams.map (·.faster c)) (om.faster c) = (movementMaxPeriod ams om).map (· / c) := by
  unfold movementMaxPeriod
  have e : (ams.map (·.faster c)).mapM (fun a : AirplaneMovement => a.maxPeriod) = (ams.mapM (fun a : AirplaneMovement => a.maxPeriod)).map (List.map (· / c)) := by
    simp only [List.mapM_map]
    exact mapM_map_ok _ _ _ _ fun a _ => airplane_maxPeriod_faster hc a
  rw [e]
  cases ams.mapM (fun a : AirplaneMovement => a.maxPeriod) with
  | error e => rfl
  | ok x =>
    simp only [Except.map, bind, Except.bind, pyMax_div hc]
    cases pyMax x with
    | error e => rfl
    | ok y =>
      simp only [pure, Except.pure, OperatingPointMovement.faster, OperatingPointMovement.maxPeriod,
        Oscillation.faster, max_div_div_right hc.le]

/-- The time the flow at speed `v` takes along a panel of the first wing. -/
noncomputable def chordTime (v : ℝ) (am : AirplaneMovement) : Except Err ℝ :=
  match am.base.wings with
  | [] => .error .indexError
  | w :: _ => .ok (am.base.cRef / w.spec.numChordwisePanels / v)

theorem defaultDeltaTime_eq (ams : List AirplaneMovement) (om : OperatingPointMovement) :
    defaultDeltaTime ams om = (ams.mapM (chordTime om.base.velocity)).bind fun ts =>
      if ts = [] then .error .zeroDivisionError else .ok (ts.sum / ts.length) := rfl

theorem deltaTime_faster (ams : List AirplaneMovement) (om : OperatingPointMovement) (dt : Option ℝ) :
    chooseDeltaTime (ams.map (·.faster c)) (om.faster c) (dt.map (· / c)) = (chooseDeltaTime ams om dt).map (· / c) := by
  cases dt with
  | some d => rfl
  | none =>
    simp only [Option.map_none, chooseDeltaTime, defaultDeltaTime_eq]
    have e : (ams.map (·.faster c)).mapM (chordTime (om.faster c).base.velocity)
        = (ams.mapM (chordTime om.base.velocity)).map (List.map (· / c)) := by
      simp only [List.mapM_map]
      apply mapM_map_ok
      intro a _
      simp only [Function.comp, chordTime, AirplaneMovement.faster, OperatingPointMovement.faster]
      cases a.base.wings with
      | nil => rfl
      | cons w ws =>
        simp only [Except.map, Except.ok.injEq]
        rw [div_div _ om.base.velocity, mul_comm c]
    rw [e]
    cases ams.mapM (chordTime om.base.velocity) with
    | error e => rfl
    | ok ts =>
      simp only [Except.map, Except.bind, List.map_eq_nil_iff]
      split
      · rfl
      · simp only [Except.ok.injEq, List.length_map]
        have : (ts.map (· / c)).sum = ts.sum / c := by simp only [div_eq_mul_inv, List.sum_map_mul_right, List.map_id']
        rw [this, div_right_comm]

theorem runLength_faster (hc : 0 < c) (ams : List AirplaneMovement) (om : OperatingPointMovement) (d : ℝ)
    (ns nc nch : Option ℕ) :
    runLength (ams.map (·.faster c)) (om.faster c) (d / c) ns nc nch = runLength ams om d ns nc nch := by
  have hc' := hc.ne'
  unfold runLength
  cases ns with
  | some n => rfl
  | none =>
    simp only
    rw [movement_maxPeriod_faster hc]
    cases movementMaxPeriod ams om with
    | error e => rfl
    | ok P =>
      have e1 : (ams.map (·.faster c)).map (·.base.cRef) = ams.map (·.base.cRef) := by
        rw [List.map_map]; rfl
      have e2 : d / c * (om.faster c).base.velocity = d * om.base.velocity := by
        simp only [OperatingPointMovement.faster]
        field_simp
      have e3 : ∀ m : ℝ, m * (P / c) / (d / c) = m * P / d := by
        intro m
        rcases eq_or_ne d 0 with h | h
        · simp [h]
        · field_simp
      simp only [Except.map, bind, Except.bind, e1, e2, e3, div_eq_zero_iff, hc', or_false]

theorem checkRunLength_faster (hc : 0 < c) (P : Except Err ℝ) (ns nc nch : Option ℕ) :
    checkRunLength (P.map (· / c)) ns nc nch = checkRunLength P ns nc nch := by
  have hc' := hc.ne'
  cases P with
  | error e => rfl
  | ok P => simp only [checkRunLength, Except.map, bind, Except.bind, div_eq_zero_iff, hc', or_false, ne_eq]

theorem averagingStart_faster (hc : 0 < c) (n : ℕ) (P d : ℝ) : averagingStart n (P / c) (d / c) = averagingStart n P d := by
  have hc' := hc.ne'
  unfold averagingStart
  rw [div_div_div_cancel_right₀ hc']
  simp only [div_eq_zero_iff, hc', or_false]

/-- The same study at `c` times the speed. -/
theorem study_faster (hc : 0 < c) {ams : List AirplaneMovement} {om : OperatingPointMovement} {ns nc nch : Option ℕ}
    {dt : Option ℝ} {only : Bool} {p : UnsteadyProblem} (h : study ams om ns nc nch dt only = .ok p) :
    ∃ p', study (ams.map (·.faster c)) (om.faster c) ns nc nch (dt.map (· / c)) only = .ok p' ∧ p'.Made ∧
      p'.numSteps = p.numSteps ∧ p'.deltaTime = p.deltaTime / c ∧ p'.maxPeriod = p.maxPeriod / c ∧
      p'.firstAveragingStep = p.firstAveragingStep ∧ p'.firstResultsStep = p.firstResultsStep ∧
      p'.onlyFinalResults = p.onlyFinalResults ∧
      ∀ k < p.numSteps, p'.airplanesAt k = p.airplanesAt k ∧
        p'.operatingPointAt k = { p.operatingPointAt k with velocity := c * (p.operatingPointAt k).velocity } := by
  obtain ⟨-, a1, a2, a3, a4, a5, a6, a7, H, O, hHH, hOO, hk⟩ := study_parts h
  have hH' : (ams.map (·.faster c)).mapM (fun am => am.generate p.numSteps (p.deltaTime / c)) = .ok H := by
    simp only [List.mapM_map, Function.comp_def, airplane_generate_same hc]
    exact hHH
  have hO' : (om.faster c).generate p.numSteps (p.deltaTime / c)
      = .ok (O.map fun op => { op with velocity := c * op.velocity }) := by
    rw [point_generate_faster hc, hOO]; rfl
  have hP' : movementMaxPeriod (ams.map (·.faster c)) (om.faster c) = .ok (p.maxPeriod / c) := by
    rw [movement_maxPeriod_faster hc, a4]; rfl
  have hmv : Movement.create (ams.map (·.faster c)) (om.faster c) ns nc nch (dt.map (· / c)) = .ok
      { airplaneMovements := ams.map (·.faster c), operatingPointMovement := om.faster c, numSteps := p.numSteps,
        deltaTime := p.deltaTime / c, airplanes := H
        operatingPoints := O.map fun op => { op with velocity := c * op.velocity } } := by
    unfold Movement.create
    rw [movement_maxPeriod_faster hc, checkRunLength_faster hc, a5, deltaTime_faster, a6]
    simp only [Except.map, bind, Except.bind, runLength_faster hc, a7, hH', hO']
    rfl
  obtain ⟨p', e, e1, e2, e3, -⟩ := C31_steady_problems _ _ ns nc nch _ _ hmv (p.maxPeriod / c) hP' only
  have hst : study (ams.map (·.faster c)) (om.faster c) ns nc nch (dt.map (· / c)) only = .ok p' :=
    bind_ok.mpr ⟨_, hmv, e⟩
  obtain ⟨b0, b1, b2, b3, b4, b5, b6, b7, H'', O'', hH2, hO2, hk2⟩ := study_parts hst
  simp only at e1 e2
  rw [e1, e2] at hH2 hO2
  rw [hH', Except.ok.injEq] at hH2
  rw [hO', Except.ok.injEq] at hO2
  subst hH2 hO2
  have hav : p'.firstAveragingStep = p.firstAveragingStep := by rw [b2, a2, e1, e2, e3, averagingStart_faster hc]
  refine ⟨p', hst, b0, e1, e2, e3, hav, by rw [b3, a3, hav], by rw [b1, a1], ?_⟩
  intro k hkn
  obtain ⟨x1, x2⟩ := hk k hkn
  obtain ⟨y1, y2⟩ := hk2 k (by rw [e1]; exact hkn)
  constructor
  · apply List.ext_getElem?
    intro i
    rcases Nat.lt_or_ge i H.length with hi | hi
    · have hx := List.getElem?_eq_getElem hi
      obtain ⟨A, hA, e⟩ := forall₂_at x1 i _ hx
      obtain ⟨A', hA', e'⟩ := forall₂_at y1 i _ hx
      rw [e, Option.some.injEq] at e'
      rw [hA, hA', e']
    · rw [List.getElem?_eq_none (by rw [← y1.length_eq]; exact hi),
        List.getElem?_eq_none (by rw [← x1.length_eq]; exact hi)]
  · rw [List.getElem?_map, x2, Option.map_some, Option.some.injEq] at y2
    exact y2.symm

/-- The two studies with viscosities. -/
theorem FasterProblem.of_study (hc : 0 < c) {p p' : UnsteadyProblem} (hp : p.Made) (hp' : p'.Made)
    (hn : p'.numSteps = p.numSteps) (hd : p'.deltaTime = p.deltaTime / c) (hf : p'.firstResultsStep = p.firstResultsStep)
    (hk : ∀ k < p.numSteps, p'.airplanesAt k = p.airplanesAt k ∧
        p'.operatingPointAt k = { p.operatingPointAt k with velocity := c * (p.operatingPointAt k).velocity })
    (nu : ℕ → ℝ) (hnu : ∀ k, 0 ≤ nu k) :
    FasterProblem (p.withViscosity nu) (p'.withViscosity fun k => c * nu k) c where
  made := hp.withViscosity nu hnu
  made' := hp'.withViscosity _ fun k => mul_nonneg hc.le (hnu k)
  pos := hc
  steps := hn
  time := hd
  first := hf
  airplanes := by
    intro k hkn
    rw [UnsteadyProblem.withViscosity_airplanes, UnsteadyProblem.withViscosity_airplanes]
    exact (hk k hkn).1
  point := by
    intro k hkn
    have h1 : k < p.steadyProblems.length := by rw [hp.regular.steps]; exact hkn
    have h2 : k < p'.steadyProblems.length := by rw [hp'.regular.steps, hn]; exact hkn
    rw [UnsteadyProblem.withViscosity_operatingPoint _ nu k h1, UnsteadyProblem.withViscosity_operatingPoint _ _ k h2,
      (hk k hkn).2]

end Ptera
