import Verif.Lemmas.FreshRun
import Verif.Spec.Trim

/-!
# Lemmas about the trim analyses
-/

namespace Ptera

/-- What an optimizer's run on an objective with side effects amounts to. `I` is kept by evaluations, `V` relates a
point to its value, `S` holds after an evaluation that stopped, `L` after one that did not. -/
theorem optimize_spec {α σ : Type} (objective : σ → α → Except Err (σ × Evaluation)) (choose : Optimizer α)
    (I : σ → Prop) (V : α → Option ℝ → Prop) (S L : α → σ → Prop)
    (hstop : ∀ st x st', I st → objective st x = .ok (st', .stop) → I st' ∧ S x st')
    (hvalue : ∀ st x st' o, I st → objective st x = .ok (st', .value o) → I st' ∧ V x o ∧ L x st') (n : ℕ) :
    ∀ (seen : List (α × Option ℝ)) (st st' : σ) (b : Bool), I st → Searched choose V seen →
      optimize objective choose n seen st = .ok (st', b) →
      I st' ∧ ∃ h : List (α × Option ℝ), Searched choose V (seen ++ h) ∧ h.length ≤ n ∧
        ((h = [] ∧ (b = false → st' = st)) ∨ ∃ x o, h.getLast? = some (x, o) ∧ (b = false → L x st')) ∧
        (b = true → h.length < n ∧ ∃ x, choose (seen ++ h) = some x ∧ S x st') ∧
        (b = false → choose (seen ++ h) = none ∨ h.length = n) := by
  induction n with
  | zero =>
    intro seen st st' b hI hs h
    simp only [optimize, Except.ok.injEq, Prod.mk.injEq] at h
    obtain ⟨rfl, rfl⟩ := h
    exact ⟨hI, [], by simpa using hs, by simp, .inl ⟨rfl, fun _ => rfl⟩, by simp, fun _ => .inr rfl⟩
  | succ n ih =>
    intro seen st st' b hI hs h
    unfold optimize at h
    cases hx : choose seen with
    | none =>
      simp only [hx, Except.ok.injEq, Prod.mk.injEq] at h
      obtain ⟨rfl, rfl⟩ := h
      exact ⟨hI, [], by simpa using hs, by simp, .inl ⟨rfl, fun _ => rfl⟩, by simp, fun _ => .inl (by simpa using hx)⟩
    | some x =>
      simp only [hx] at h
      split at h
      · cases h
      · next st1 ho =>
        simp only [Except.ok.injEq, Prod.mk.injEq] at h
        obtain ⟨rfl, rfl⟩ := h
        obtain ⟨hI', hS⟩ := hstop _ _ _ hI ho
        exact ⟨hI', [], by simpa using hs, by simp, .inl ⟨rfl, by simp⟩,
          fun _ => ⟨by simp, x, by simpa using hx, hS⟩, by simp⟩
      · next st1 o ho =>
        obtain ⟨hI', hV, hL⟩ := hvalue _ _ _ _ hI ho
        have hs' : Searched choose V (seen ++ [(x, o)]) := by
          intro i y p hi
          by_cases hlt : i < seen.length
          · rw [List.getElem?_append_left hlt] at hi
            rw [List.take_append_of_le_length hlt.le]
            exact hs i y p hi
          · have hil : i = seen.length := by
              have := (List.getElem?_eq_some_iff.mp hi).1
              simp at this; omega
            subst hil
            simp at hi
            obtain ⟨rfl, rfl⟩ := hi
            simp [hx, hV]
        obtain ⟨hI'', h', h1, h2, h3, h4, h5⟩ := ih _ _ _ _ hI' hs' h
        rw [List.append_assoc] at h1 h4 h5
        refine ⟨hI'', [(x, o)] ++ h', h1, by simpa using h2, .inr ?_, ?_, ?_⟩
        · rcases h3 with ⟨rfl, hst⟩ | ⟨y, p, hl, hst⟩
          · exact ⟨x, o, rfl, fun hb => by rw [hst hb]; exact hL⟩
          · refine ⟨y, p, ?_, hst⟩
            rw [List.getLast?_append, hl]; rfl
        · intro hb
          obtain ⟨a, b⟩ := h4 hb
          exact ⟨by simpa using a, b⟩
        · intro hb
          rcases h5 hb with a | a
          · exact .inl a
          · exact .inr (by simpa using a)

/-- An optimizer's run fails only where the objective fails. -/
theorem optimize_error {α σ : Type} (objective : σ → α → Except Err (σ × Evaluation)) (choose : Optimizer α)
    (I : σ → Prop) (E : Err → Prop)
    (hok : ∀ st x st' ev, I st → objective st x = .ok (st', ev) → I st')
    (herr : ∀ st x e, I st → objective st x = .error e → E e) (n : ℕ) :
    ∀ (seen : List (α × Option ℝ)) (st : σ) (e : Err), I st →
      optimize objective choose n seen st = .error e → E e := by
  induction n with
  | zero => intro seen st e _ h; simp [optimize] at h
  | succ n ih =>
    intro seen st e hI h
    unfold optimize at h
    cases hx : choose seen with
    | none => simp [hx] at h
    | some x =>
      simp only [hx] at h
      split at h
      · next e' ho => cases h; exact herr _ _ _ hI ho
      · cases h
      · next st1 o ho => exact ih _ _ _ (hok _ _ _ _ hI ho) h

/-! ## The objective of the steady trim -/

/-- The problem, possibly flown at other arguments. -/
def Flown (problem p : SteadyProblem) : Prop := p = problem ∨ ∃ x, p = problem.flownAt x

theorem Flown.flownAt {problem p : SteadyProblem} (h : Flown problem p) (x : TrimArguments) :
    p.flownAt x = problem.flownAt x := by
  rcases h with rfl | ⟨y, rfl⟩ <;> rfl

theorem Flown.airplanes {problem p : SteadyProblem} (h : Flown problem p) : p.airplanes = problem.airplanes := by
  rcases h with rfl | ⟨y, rfl⟩ <;> rfl

theorem imbalance_spec (op : OperatingPoint) (a : Airplane) (L : AirplaneLoads) (thrust : ℝ) :
    let q := op.density * op.velocity ^ 2 / 2
    let undefined := q = 0 ∨ a.sRef = 0 ∨ a.cRef = 0 ∨ a.bRef = 0
    let net : V3 := L.forceCoefficients - ⟨thrust / (q * a.sRef), 0, a.weight / (q * a.sRef)⟩
    (undefined → imbalance op a L a.weight thrust = none) ∧
    (¬ undefined → imbalance op a L a.weight thrust = some ((net.norm + L.momentCoefficients.norm) / 2)) := by
  have hq : op.dynamicPressure = op.density * op.velocity ^ 2 / 2 := by
    unfold OperatingPoint.dynamicPressure; ring
  unfold imbalance
  simp only [hq]
  constructor
  · intro h
    rw [if_pos h]
  · intro h
    rw [if_neg h, abs_of_nonneg (V3.norm_nonneg _), abs_of_nonneg (V3.norm_nonneg _)]
    simp only [div_div, zero_div]

theorem belowCutOff_iff (o : Option ℝ) (c : ℝ) : belowCutOff o c = true ↔ Below o c := by
  cases o <;> simp [belowCutOff, Below]

theorem steadyObjective_eq {problem : SteadyProblem} (cutOff weight : ℝ) {st : TrimState}
    (hst : Flown problem st.problem) (x : TrimArguments) :
    steadyObjective cutOff weight st x
      = match (HorseshoeSolver.create (problem.flownAt x) st.heap st.loads).run with
        | .error e => .error e
        | .ok s => steadyOutcome cutOff weight (problem.flownAt x) x s := by
  rw [← hst.flownAt x]
  show Except.bind (HorseshoeSolver.create (st.problem.flownAt x) st.heap st.loads).run
    (steadyOutcome cutOff weight (st.problem.flownAt x) x) = _
  cases (HorseshoeSolver.create (st.problem.flownAt x) st.heap st.loads).run <;> rfl

/-- One evaluation of the objective: what it returns and leaves. -/
theorem steadyObjective_ok {problem : SteadyProblem} (hc : Counted problem.airplanes) {airplane : Airplane}
    (ha : problem.airplanes[0]? = some airplane) {cutOff : ℝ} {st st' : TrimState} (hst : Flown problem st.problem)
    {x : TrimArguments} {ev : Evaluation}
    (h : steadyObjective cutOff airplane.weight st x = .ok (st', ev)) :
    st'.problem = problem.flownAt x ∧ ∃ o, HasImbalance problem x o ∧
      ((ev = .stop ∧ Below o cutOff ∧ st'.current = [some x.velocity, some x.alpha, some x.beta, some x.externalThrust])
      ∨ (ev = .value o ∧ ¬ Below o cutOff)) := by
  rw [steadyObjective_eq cutOff _ hst x] at h
  split at h
  · cases h
  · next s hr =>
    obtain ⟨s2, hs2, heq, _⟩ := HorseshoeSolver.run_fresh (problem.flownAt x) hc st.heap PanelHeap.fresh st.loads [] hr
    have hloads : s2.loads = s.loads := by rw [heq]
    have has : (problem.flownAt x).airplanes = problem.airplanes := rfl
    unfold steadyOutcome at h
    split at h
    · next a _ L _ hcas hl =>
      rw [has] at hcas
      have haa : a = airplane := by simpa [hcas] using ha
      subst haa
      have hval : HasImbalance problem x
          (imbalance (problem.flownAt x).operatingPoint a L a.weight x.externalThrust) :=
        ⟨s2, a, L, hs2, ha, by rw [hloads, hl]; rfl,
          imbalance_spec (problem.flownAt x).operatingPoint a L x.externalThrust⟩
      simp only at h
      split at h
      · next hb =>
        simp only [Except.ok.injEq, Prod.mk.injEq] at h
        obtain ⟨rfl, rfl⟩ := h
        exact ⟨rfl, _, hval, .inl ⟨rfl, (belowCutOff_iff _ _).mp hb, rfl⟩⟩
      · next hb =>
        simp only [Except.ok.injEq, Prod.mk.injEq] at h
        obtain ⟨rfl, rfl⟩ := h
        exact ⟨rfl, _, hval, .inr ⟨rfl, fun hB => hb ((belowCutOff_iff _ _).mpr hB)⟩⟩
    · cases h

/-- An evaluation fails only in the linear solve. -/
theorem steadyObjective_error {problem : SteadyProblem} (hc : Counted problem.airplanes) {airplane : Airplane}
    (ha : problem.airplanes[0]? = some airplane) {cutOff : ℝ} {st : TrimState} (hst : Flown problem st.problem)
    {x : TrimArguments} {e : Err}
    (h : steadyObjective cutOff airplane.weight st x = .error e) :
    e = .linAlgError ∧ (HorseshoeSolver.create (problem.flownAt x)).run = .error .linAlgError := by
  rw [steadyObjective_eq cutOff _ hst x] at h
  split at h
  · next e' hr =>
    cases h
    obtain rfl := HorseshoeSolver.run_error (problem.flownAt x) hc _ _ hr
    refine ⟨rfl, ?_⟩
    cases hf : (HorseshoeSolver.create (problem.flownAt x)).run with
    | error e => rw [HorseshoeSolver.run_error (problem.flownAt x) hc _ _ hf]
    | ok s =>
      obtain ⟨s2, hs2, _⟩ := HorseshoeSolver.run_fresh (problem.flownAt x) hc PanelHeap.fresh st.heap [] st.loads hf
      rw [hs2] at hr
      cases hr
  · next s hr =>
    have hlen := HorseshoeSolver.run_loads_length (problem.flownAt x) hc st.heap st.loads hr
    have has : (problem.flownAt x).airplanes = problem.airplanes := rfl
    unfold steadyOutcome at h
    split at h
    · simp only at h
      split at h <;> simp at h
    · next hno =>
      rw [has] at hlen
      cases hcas : problem.airplanes with
      | nil => simp [hcas] at ha
      | cons a rest =>
        cases hl : s.loads with
        | nil => rw [hl, hcas] at hlen; simp at hlen
        | cons L more => exact absurd hl (hno a rest L more hcas)

end Ptera
