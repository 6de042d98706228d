import Verif.Model.Convergence
import Verif.Spec.Made
import Verif.Lemmas.MapM
import Verif.Lemmas.SteadyRuns
import Verif.Lemmas.FreshRun
import Mathlib.Tactic.Linarith

/-! # The meshes of a convergence study -/

namespace Ptera

theorem forall₂_left {α β : Type*} {R : α → β → Prop} {l : List α} {r : List β} (h : List.Forall₂ R l r) :
    ∀ a ∈ l, ∃ b, R a b := by
  induction h with
  | nil => simp
  | cons h1 _ ih =>
    intro a ha
    rcases List.mem_cons.1 ha with rfl | ha
    · exact ⟨_, h1⟩
    · exact ih a ha

theorem forall₂_right {α β : Type*} {R : α → β → Prop} {l : List α} {r : List β} (h : List.Forall₂ R l r) :
    ∀ b ∈ r, ∃ a, R a b := by
  induction h with
  | nil => simp
  | cons hab _ ih =>
    intro b hb
    rcases List.mem_cons.1 hb with rfl | hb
    · exact ⟨_, hab⟩
    · exact ih b hb

/-- Rounding goes to a nearest integer. -/
theorem pyRound_near (x : ℝ) : |(pyRound x : ℝ) - x| ≤ 1 / 2 := by
  have h1 := Int.fract_nonneg x
  have h2 := (Int.fract_lt_one x).le
  have h3 : x = ⌊x⌋ + Int.fract x := (Int.floor_add_fract x).symm
  unfold pyRound
  rw [abs_le]
  split_ifs with a b c <;> push_cast <;> constructor <;> linarith

theorem pyRound_int (n : ℤ) : pyRound (n : ℝ) = n := by
  unfold pyRound
  simp

theorem spanwiseCount_ok {length root tip : ℝ} {chordwise ratio : ℤ} {n : ℕ}
    (h : spanwiseCount length root tip chordwise ratio = .ok n) :
    length ≠ 0 ∧ (root + tip) / 2 * ratio ≠ 0 ∧
      |(n : ℝ) - length * chordwise / ((root + tip) / 2 * ratio)| ≤ 1 / 2 := by
  unfold spanwiseCount at h
  dsimp only at h
  split_ifs at h with h1 h2 h3
  have e : length * (root + tip) / 2 / length = (root + tip) / 2 := by field_simp
  rw [e] at h h2 h3
  refine ⟨h1, h2, ?_⟩
  have hn := Except.ok.inj h
  have h4 := pyRound_near (length * chordwise / ((root + tip) / 2 * ratio))
  have : (n : ℝ) = (pyRound (length * chordwise / ((root + tip) / 2 * ratio)) : ℝ) := by
    rw [← hn]
    have := Int.toNat_of_nonneg (not_lt.1 h3)
    exact_mod_cast this
  rw [this]; exact h4

theorem remeshSection_ok {renew : Airfoil → Except Err Airfoil} {chordwise ratio : ℤ} {s s' : WingCrossSection}
    {next : Option WingCrossSection} (h : remeshSection renew chordwise ratio s next = .ok s') :
    ∃ airfoil n, renew s.airfoil = .ok airfoil ∧
      s' = { s with airfoil, unitNormal := ⟨0, 1, 0⟩, numSpanwisePanels := n, wingUnitChordwise := 0 } ∧
      match next with
      | none => n = 0
      | some t => spanwiseCount (t.leadingEdge.y - s.leadingEdge.y) s.chord t.chord chordwise ratio = .ok n := by
  unfold remeshSection at h
  cases next with
  | none =>
    simp only [bind, Except.bind, pure, Except.pure] at h
    cases hr : renew s.airfoil with
    | error e => rw [hr] at h; simp at h
    | ok a =>
      rw [hr] at h
      simp only [WingCrossSection.create] at h
      split_ifs at h
      exact ⟨a, 0, rfl, (Except.ok.inj h).symm, rfl⟩
  | some t =>
    simp only [bind, Except.bind] at h
    cases hc : spanwiseCount (t.leadingEdge.y - s.leadingEdge.y) s.chord t.chord chordwise ratio with
    | error e => rw [hc] at h; simp at h
    | ok n =>
      rw [hc] at h
      simp only at h
      cases hr : renew s.airfoil with
      | error e => rw [hr] at h; simp at h
      | ok a =>
        rw [hr] at h
        simp only [WingCrossSection.create] at h
        split_ifs at h
        exact ⟨a, n, rfl, (Except.ok.inj h).symm, hc⟩

theorem remeshSections_ok {renew : Airfoil → Except Err Airfoil} {chordwise ratio : ℤ}
    {ss ss' : List WingCrossSection} (h : remeshSections renew chordwise ratio ss = .ok ss') :
    ss'.length = ss.length ∧ ∀ i s, ss[i]? = some s → ∃ s', ss'[i]? = some s' ∧
      remeshSection renew chordwise ratio s ss[i + 1]? = .ok s' := by
  induction ss generalizing ss' with
  | nil =>
    obtain rfl : [] = ss' := Except.ok.inj h
    simp
  | cons a rest ih =>
    simp only [remeshSections, bind, Except.bind, pure, Except.pure] at h
    cases hs : remeshSection renew chordwise ratio a rest.head? with
    | error e => rw [hs] at h; simp at h
    | ok a' =>
      rw [hs] at h
      cases hr : remeshSections renew chordwise ratio rest with
      | error e => rw [hr] at h; simp at h
      | ok rest' =>
        rw [hr] at h
        obtain rfl := (Except.ok.inj h).symm
        obtain ⟨h1, h2⟩ := ih hr
        refine ⟨by simp [h1], ?_⟩
        intro i s hi
        cases i with
        | zero =>
          simp at hi; subst hi
          refine ⟨a', by simp, ?_⟩
          rw [← hs]; cases rest <;> simp
        | succ i =>
          obtain ⟨s', h3, h4⟩ := h2 i s (by simpa using hi)
          exact ⟨s', by simpa using h3, by simpa using h4⟩

theorem Wing.create_fields {sections : List WingCrossSection} {le n u : V3} {sym : Bool} {m : ℕ} {sp : String}
    {w : Wing} (h : Wing.create sections le n sym u m sp = .ok w) :
    w.spec = ⟨le, n, sym, u, m, sp⟩ ∧ w.sections = sections.map fun s => { s with wingUnitChordwise := u } := by
  unfold Wing.create at h
  match sections, h with
  | root :: second :: rest, h =>
    simp only at h
    split_ifs at h <;>
    · simp only [bind, Except.bind] at h
      split at h
      · simp at h
      · simp only [pure, Except.pure, Except.ok.injEq] at h
        subst h; simp

theorem remeshWing_ok {w w' : Wing} {sections : List WingCrossSection} {chordwise : ℤ}
    (h : remeshWing w sections chordwise = .ok w') :
    0 ≤ chordwise ∧ w'.spec = ⟨w.spec.leadingEdge, ⟨0, 1, 0⟩, w.spec.symmetric, ⟨1, 0, 0⟩, chordwise.toNat,
      w.spec.chordwiseSpacing⟩ ∧ w'.sections = sections.map (fun s => { s with wingUnitChordwise := ⟨1, 0, 0⟩ }) ∧
      w'.Made := by
  unfold remeshWing at h
  split_ifs at h with hc
  obtain ⟨h1, h2⟩ := Wing.create_fields h
  exact ⟨not_lt.1 hc, h1, h2, ⟨_, _, _, _, _, _, _, h⟩⟩

theorem remeshAirplane_ok {renew : Airfoil → Except Err Airfoil} {chordwise ratio : ℤ} {a a' : Airplane}
    (h : remeshAirplane renew chordwise ratio a = .ok a') :
    a'.Made ∧ a'.xyzRef = a.xyzRef ∧ a'.weight = a.weight ∧
      List.Forall₂ (fun w w' => ∃ sections, remeshSections renew chordwise ratio w.sections = .ok sections ∧
        remeshWing w sections chordwise = .ok w') a.wings a'.wings := by
  unfold remeshAirplane at h
  simp only [bind, Except.bind] at h
  split at h
  · simp at h
  · rename_i wings hw
    have h2 := mapM_forall₂.1 hw
    have h3 : List.Forall₂ (fun w w' => ∃ sections, remeshSections renew chordwise ratio w.sections = .ok sections ∧
        remeshWing w sections chordwise = .ok w') a.wings wings := by
      refine h2.imp fun w w' hww => ?_
      split at hww
      · simp at hww
      · exact ⟨_, by assumption, hww⟩
    have hmade : ∀ w' ∈ wings, w'.Made := by
      intro w' hw'
      obtain ⟨_, _, _, h5⟩ := forall₂_right h3 w' hw'
      exact (remeshWing_ok h5).2.2.2
    refine ⟨⟨_, _, _, _, _, _, h, hmade⟩, ?_⟩
    unfold Airplane.create at h
    cases wings with
    | nil => simp at h
    | cons m ms =>
      obtain rfl := (Except.ok.inj h).symm
      exact ⟨rfl, rfl, h3⟩

/-- An iteration yields one pair of norms for every airplane. -/
theorem steadyIteration_length {renew : Airfoil → Except Err Airfoil} {ref : SteadyProblem} {solverType : String}
    {ratio chordwise : ℤ} {r : List (ℝ × ℝ)} (h : steadyIteration renew ref solverType ratio chordwise = .ok r) :
    r.length = ref.airplanes.length := by
  unfold steadyIteration at h
  simp only [bind, Except.bind] at h
  split at h
  · simp at h
  · rename_i airplanes ha
    have h2 := mapM_forall₂.1 ha
    have hmade : ∀ a ∈ airplanes, a.Made := by
      intro a' ha'
      obtain ⟨_, h5⟩ := forall₂_right h2 a' ha'
      exact (remeshAirplane_ok h5).1
    split at h
    · simp at h
    · rename_i loads hl
      simp only [pure, Except.pure, Except.ok.injEq] at h
      subst h
      rw [List.length_map, h2.length_eq]
      have hc := counted_of_made hmade
      unfold solveSteady at hl
      split_ifs at hl
      · simp only [bind, Except.bind] at hl
        split at hl
        · simp at hl
        · rename_i s hs
          simp only [pure, Except.pure, Except.ok.injEq] at hl
          subst hl
          exact HorseshoeSolver.run_loads_length ⟨airplanes, ref.operatingPoint⟩ hc _ _ hs
      · simp only [bind, Except.bind] at hl
        split at hl
        · simp at hl
        · rename_i s hs
          simp only [pure, Except.pure, Except.ok.injEq] at hl
          subst hl
          have htot : totalPanels airplanes = (panelRefs airplanes).length := (panelRefs_length _ hc).symm
          obtain ⟨x, _, _, rfl⟩ := RingSolver.run_result (s := RingSolver.create ⟨airplanes, ref.operatingPoint⟩) hc
            (by simp [RingSolver.create]) (by simp [RingSolver.create]) (by simp [RingSolver.create]) hs
          show (((RingSolver.create ⟨airplanes, ref.operatingPoint⟩).solved x).calculateForces).loads.length = _
          simp [RingSolver.calculateForces, processForces, RingSolver.solved, RingSolver.create]

theorem selectCoefficients_length {mask : List Bool} {f m : V3} {r : List ℝ}
    (h : selectCoefficients mask f m = .ok r) : r.length = mask.count true := by
  unfold selectCoefficients at h
  split_ifs at h with h6
  obtain rfl := (Except.ok.inj h).symm
  have key : ∀ (l : List Bool) (v : List ℝ), l.length = v.length →
      ((List.zip l v).filterMap fun t => if t.1 then some t.2 else none).length = l.count true := by
    intro l
    induction l with
    | nil => intro v _; simp
    | cons b l ih =>
      intro v hv
      cases v with
      | nil => simp at hv
      | cons x v =>
        have := ih v (by simpa using hv)
        cases b <;> simp [this]
  exact key mask _ (by push Not at h6; simpa using h6)

/-- An iteration of the unsteady study yields the selected coefficients of every airplane. -/
theorem unsteadyIteration_shape {renew : Airfoil → Except Err Airfoil} {ref : Movement} {static : Bool}
    {mask : List Bool} {wake : Bool} {length ratio chordwise : ℤ} {r : List (List ℝ)}
    (h : unsteadyIteration renew ref static mask wake length ratio chordwise = .ok r) :
    r.length = ref.airplaneMovements.length ∧ ∀ l ∈ r, l.length = mask.count true := by
  unfold unsteadyIteration at h
  simp only [bind, Except.bind] at h
  split at h
  · simp at h
  rename_i airplanes ha
  split at h
  · simp at h
  split at h
  · simp at h
  split at h
  · simp at h
  split at h
  · simp at h
  unfold selectedResults at h
  refine ⟨by rw [(mapM_range h).1, mapM_length ha], ?_⟩
  intro l hl
  obtain ⟨i, hi⟩ := List.mem_iff_getElem?.1 hl
  have hlt : i < airplanes.length := by
    have := (List.getElem?_eq_some_iff.1 hi).1
    rwa [(mapM_range h).1] at this
  obtain ⟨b, hb, hf⟩ := (mapM_range h).2 i hlt
  rw [hi] at hb
  obtain rfl := Option.some.inj hb
  split at hf
  · exact selectCoefficients_length hf
  · simp at hf

end Ptera
