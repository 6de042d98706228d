import Verif.Lemmas.Reordered
import Verif.Props.MirrorRuns
import Verif.Lemmas.PlatePair

/-!
# Unsteady results and the order of airplanes and wings

C71: listing the airplanes of an unsteady study, or the wings of an airplane, in another order does not change the flow,
the wake or the loads.
-/

namespace Ptera

open List UnsteadySolver

/-- C71: with the movements of the airplanes, and the movements of the wings of each, listed in another order, a study is
accepted just the same and has as many steps, its run succeeds just the same, and every step shows the same flow, wake,
vortex strengths and loads under the other numbers. Where the time step or the number of steps is left to its default,
what the defaults are computed from has to be the same. -/
theorem C71_order (ams ams' : List AirplaneMovement) (om : OperatingPointMovement) (ns nc nch : Option ℕ)
    (dt : Option ℝ) (only : Bool) (p : UnsteadyProblem) (h : study ams om ns nc nch dt only = .ok p) (hc : p.Chordwise)
    (ρ : ℕ → ℕ) (ω : ℕ → ℕ → ℕ) (hams : ReorderedMovements ams ams' ρ ω)
    (hdefaults : (dt.isSome ∧ (ns.isSome ∨ p.maxPeriod ≠ 0)) ∨ SameDefaults ams ams' ρ) :
    ∃ p', study ams' om ns nc nch dt only = .ok p' ∧
      p'.numSteps = p.numSteps ∧ p'.deltaTime = p.deltaTime ∧ p'.maxPeriod = p.maxPeriod ∧
      p'.firstAveragingStep = p.firstAveragingStep ∧
      ∀ s s₁ z prescribed streamlines streamlines', Reached p s → s.run prescribed streamlines = .ok s₁ → Reached p' z →
        ∃ z₁, z.run prescribed streamlines' = .ok z₁ ∧ ∀ k < p.numSteps, StepReordered p p' ρ ω s₁ z₁ k := by
  obtain ⟨hmade, -, -, -, hP, -, hdt, -⟩ := study_parts h
  obtain ⟨p', h', hm', hn, hd, hP', ha', hf, -, H, H', O, O', hH, rfl, hk⟩ :=
    study_varied (ams' := ams') (om' := om) h (by rw [hams.maxPeriod hP, hP])
      (by
        cases dt with
        | some d => rfl
        | none =>
          have hdef : SameDefaults ams ams' ρ := by
            rcases hdefaults with hd | hd
            · cases hd.1
            · exact hd
          unfold chooseDeltaTime at hdt ⊢
          simp only at hdt ⊢
          rw [hams.defaultDeltaTime hdef hdt, hdt])
      (hams.runLength hP (by
        rcases hdefaults with hd | hd
        · exact hd.2.imp id Or.inl
        · exact .inr (.inr hd)))
      (fun H H' => H'.length = H.length ∧ H.length = ams.length ∧
        ∀ (a : ℕ) y, H[a]? = some y → ∃ y', H'[ρ a]? = some y' ∧
          ∀ (k : ℕ) A A', y[k]? = some A → y'[k]? = some A' →
            Airplane.create A.wings (xyzRef := A.xyzRef) = .ok A ∧
            Airplane.create A'.wings (xyzRef := A'.xyzRef) = .ok A' ∧ A'.xyzRef = A.xyzRef ∧
            A'.wings.length = A.wings.length ∧
            (∀ v w, v < A.wings.length → w < A.wings.length → ω a v = ω a w → v = w) ∧
            ∀ (w : ℕ) W, A.wings[w]? = some W → A'.wings[ω a w]? = some W)
      (fun O O' => O' = O)
      (by
        intro n d H hH
        obtain ⟨H', h1, h2, h3, h4⟩ := hams.generate hH
        refine ⟨H', h1, h2, h3, ?_⟩
        intro a y hy
        obtain ⟨y', e1, -, -, e2⟩ := h4 a y hy
        exact ⟨y', e1, e2⟩)
      (fun n d O hO => ⟨O, hO, rfl⟩)
  obtain ⟨hl1, hl2, hH⟩ := hH
  refine ⟨p', h', hn, hd, hP', ha', ?_⟩
  have hpair : ∀ k < p.numSteps, ∀ (a : ℕ) A, (p.airplanesAt k)[a]? = some A → ∃ A', (p'.airplanesAt k)[ρ a]? = some A' ∧
      Airplane.create A.wings (xyzRef := A.xyzRef) = .ok A ∧
      Airplane.create A'.wings (xyzRef := A'.xyzRef) = .ok A' ∧ A'.xyzRef = A.xyzRef ∧
      A'.wings.length = A.wings.length ∧
      (∀ v w, v < A.wings.length → w < A.wings.length → ω a v = ω a w → v = w) ∧
      ∀ (w : ℕ) W, A.wings[w]? = some W → A'.wings[ω a w]? = some W := by
    intro k hkn a A hA
    obtain ⟨a1, a2, -, -⟩ := hk k hkn
    have ha : a < H.length := by rw [a1.length_eq]; exact (List.getElem?_eq_some_iff.mp hA).1
    obtain ⟨B, hB, e⟩ := forall₂_at a1 a _ (List.getElem?_eq_getElem ha)
    rw [hA, Option.some.injEq] at hB
    subst hB
    obtain ⟨y', hy', hrel⟩ := hH a _ (List.getElem?_eq_getElem ha)
    obtain ⟨A', hA', e'⟩ := forall₂_at a2 _ _ hy'
    exact ⟨A', hA', hrel k A A' e e'⟩
  have hren : ∀ k < p.numSteps, Renumbered (p.airplanesAt k) (p'.airplanesAt k) ρ ω := by
    intro k hkn
    obtain ⟨a1, a2, -, -⟩ := hk k hkn
    refine ⟨by rw [← a1.length_eq, ← a2.length_eq, hl1], by rw [← a1.length_eq, hl2]; exact hams.injective, ?_⟩
    intro a A hA
    obtain ⟨A', hA', -, -, hrest⟩ := hpair k hkn a A hA
    exact ⟨A', hA', hrest⟩
  have hop : ∀ k < p.numSteps, p'.operatingPointAt k = p.operatingPointAt k := by
    intro k hkn
    obtain ⟨-, -, a3, a4⟩ := hk k hkn
    rw [a3, Option.some.injEq] at a4
    exact a4.symm
  have hs : SimilarUnsteady p p' M3.one 0 (fun _ _ => false) 1 ρ ω :=
    { made := hmade, made' := hm', chordwise := hc, steps := hn.ge, time := hd
      similar := by
        intro k hkn
        exact {
          airplanes := SimilarAirplanes.of_renumbered (hren k hkn)
          made := hmade.regular.made k
          made' := hm'.regular.made k
          nonzero := one_ne_zero
          direction := by simp only [hop k hkn, one_mulVec]
          velocity := by simp only [hop k hkn, one_mulVec, one_smul]
          density := by simp only [hop k hkn, _root_.one_mul] }
      nu := by intro k hkn; rw [hop k hkn]
      shared := by intro k _ a w hw; cases hw }
  intro s s₁ z pres sl sl' hr hrun hz
  obtain ⟨z₁, hrun'⟩ := hs.run_exists hr hrun hz hn.le pres sl'
  refine ⟨z₁, hrun', ?_⟩
  intro k hkn
  obtain ⟨hfl, hst, hw⟩ := hs.run_flow hr hrun hz hrun' k hkn
  have hdet : M3.one.det = 1 := one_isRot.2
  have hl := fun hfr : p.firstResultsStep ≤ (k : ℤ) => hs.run_loads (N := M3.one) hr hrun hz hrun' k hkn
    (by rw [M3.mul_one, M3.one_mul, hop k hkn]) hfr (by rw [hf]; exact hfr)
  refine ⟨?_, ?_, ?_, ?_⟩
  · intro q
    have := hfl q
    rwa [one_mulVec, one_mulVec, add_zero] at this
  · intro r c hc
    refine ⟨?_, ?_, ?_⟩
    · obtain ⟨A, W, hA, hW, hcell⟩ := panelAt_cell hc
      obtain ⟨A', hA', -, -, -, hw⟩ := (hren k hkn).airplanes r.airplane A hA
      simp only [panelAt, wingAt, hA', hw _ _ hW, Option.bind_some]
      exact hcell
    · obtain ⟨v, v', h1, h2, h3⟩ := hst r c hc
      rw [orientation_one, _root_.one_mul] at h3
      exact ⟨v, v', h1, h2, h3⟩
    · intro hfr
      obtain ⟨L, L', h1, h2, h3, h4, h5, h6⟩ := (hl hfr).1 r c hc
      rw [one_mulVec] at h3 h4 h5 h6
      rw [hdet, _root_.one_mul] at h4 h6
      rw [one_smul] at h3 h4 h5 h6
      exact ⟨L, L', h1, h2, h3, h4, h5, h6⟩
  · intro c hc
    refine ⟨(hs.motion.wings.places_perm hkn).mem_iff.mpr (List.mem_map_of_mem hc), ?_⟩
    obtain ⟨w, w', h1, h2, h3, h4, h5, h6, h7, h8⟩ := hw c hc
    refine ⟨w, h1, ?_⟩
    have e : placeImage p (fun _ _ => false) (fun a _ => ρ a) ω k c = ⟨ρ c.airplane, ω c.airplane c.wing, c.row, c.col⟩ := rfl
    rw [e] at h2
    rw [h2]
    simp only [Bool.false_eq_true, if_false, one_mulVec, orientation_one, _root_.one_mul, add_zero] at h3 h4 h5 h6 h7
    congr 1
    cases w'
    simp only at h3 h4 h5 h6 h7 h8
    subst h3 h4 h5 h6 h7 h8
    rfl
  · intro hfr a A hA
    obtain ⟨A', L, L', h1, h2, h3, h4, h5, h6, h7⟩ := (hl hfr).2 a A hA
    rw [one_mulVec] at h4 h5
    rw [hdet, _root_.one_mul] at h5
    refine ⟨A', L, L', h1, h2, h3, by rw [h4, one_smul], by rw [h5, one_smul], ?_, ?_⟩
    · intro h0
      obtain ⟨B, hB, c1, c2, -, -, -, c3⟩ := hpair k hkn a A hA
      have h1' : (p'.airplanesAt k)[ρ a]? = some A' := h1
      rw [h1', Option.some.injEq] at hB
      subst hB
      cases hw : A.wings with
      | nil => rw [hw] at c1; simp [Airplane.create] at c1
      | cons v vs =>
        have c4 := c3 0 v (by rw [hw]; rfl)
        rw [h0] at c4
        cases hw' : A'.wings with
        | nil => rw [hw'] at c4; simp at c4
        | cons v' vs' =>
          rw [hw'] at c4
          simp only [List.getElem?_cons_zero, Option.some.injEq] at c4
          subst c4
          rw [hw] at c1
          rw [hw'] at c2
          simp only [Airplane.create, Except.ok.injEq] at c1 c2
          rw [← c1, ← c2]
          exact ⟨rfl, rfl, rfl⟩
    intro d1 d2 d3
    exact h6.scale h7 (e := 1) one_ne_zero (by rw [hop k hkn, _root_.one_mul]) d1 d2 d3 h4 h5

/-- A permutation of a list renumbers its places. -/
theorem perm_renumbering {α : Type} {l l' : List α} (h : l ~ l') : ∃ ρ : ℕ → ℕ, (∀ a < l.length, l'[ρ a]? = l[a]?) ∧
    ∀ a b, a < l.length → b < l.length → ρ a = ρ b → a = b := by
  induction h with
  | nil => exact ⟨id, by simp, fun _ _ _ _ h => h⟩
  | cons x _ ih =>
    obtain ⟨ρ, h1, h2⟩ := ih
    refine ⟨fun a => match a with | 0 => 0 | a + 1 => ρ a + 1, ?_, ?_⟩
    · intro a ha
      cases a with
      | zero => rfl
      | succ a => simpa using h1 a (by simpa using ha)
    · intro a b ha hb hab
      cases a <;> cases b
      · rfl
      · simp at hab
      · simp at hab
      · simp only [Nat.add_right_cancel_iff] at hab
        rw [h2 _ _ (by simpa using ha) (by simpa using hb) hab]
  | swap x y l =>
    refine ⟨fun a => match a with | 0 => 1 | 1 => 0 | a + 2 => a + 2, ?_, ?_⟩
    · intro a _
      match a with
      | 0 => rfl
      | 1 => rfl
      | a + 2 => rfl
    · intro a b _ _ hab
      match a, b with
      | 0, 0 => rfl
      | 0, 1 => simp at hab
      | 0, b + 2 => simp at hab
      | 1, 0 => simp at hab
      | 1, 1 => rfl
      | 1, b + 2 => simp at hab
      | a + 2, 0 => simp at hab
      | a + 2, 1 => simp at hab
      | a + 2, b + 2 => simpa using hab
  | @trans l₁ l₂ l₃ h12 h23 ih1 ih2 =>
    obtain ⟨ρ, h1, h2⟩ := ih1
    obtain ⟨τ, g1, g2⟩ := ih2
    have hlt : ∀ a < l₁.length, ρ a < l₂.length := by
      intro a ha
      have := h1 a ha
      rw [List.getElem?_eq_getElem ha] at this
      exact (List.getElem?_eq_some_iff.mp this).1
    refine ⟨τ ∘ ρ, ?_, ?_⟩
    · intro a ha
      rw [← h1 a ha]
      exact g1 _ (hlt a ha)
    · intro a b ha hb hab
      exact h2 a b ha hb (g2 _ _ (hlt a ha) (hlt b hb) hab)

/-- C71: with the airplane movements in any other order, whatever is left to its default, the study is accepted just the
same, its run succeeds just the same, and every step shows the same flow, wake, strengths, loads and coefficients; the
airplanes are only numbered differently. -/
theorem C71_airplanes (ams ams' : List AirplaneMovement) (hperm : ams ~ ams') (om : OperatingPointMovement)
    (ns nc nch : Option ℕ) (dt : Option ℝ) (only : Bool) (p : UnsteadyProblem)
    (h : study ams om ns nc nch dt only = .ok p) (hc : p.Chordwise) :
    ∃ (ρ : ℕ → ℕ) (p' : UnsteadyProblem), (∀ a < ams.length, ams'[ρ a]? = ams[a]?) ∧
      (∀ a b, a < ams.length → b < ams.length → ρ a = ρ b → a = b) ∧
      study ams' om ns nc nch dt only = .ok p' ∧
      p'.numSteps = p.numSteps ∧ p'.deltaTime = p.deltaTime ∧ p'.maxPeriod = p.maxPeriod ∧
      p'.firstAveragingStep = p.firstAveragingStep ∧
      ∀ s s₁ z prescribed streamlines streamlines', Reached p s → s.run prescribed streamlines = .ok s₁ → Reached p' z →
        ∃ z₁, z.run prescribed streamlines' = .ok z₁ ∧ ∀ k < p.numSteps,
          StepReordered p p' ρ (fun _ => id) s₁ z₁ k ∧
          (p.firstResultsStep ≤ k → ∀ (a : ℕ) A, (p.airplanesAt k)[a]? = some A → ∃ L L' : AirplaneLoads,
            (s₁.loads k)[a]? = some L ∧ (z₁.loads k)[ρ a]? = some L' ∧
            L'.forceWind = L.forceWind ∧ L'.momentWind = L.momentWind ∧
            L'.forceCoefficients = L.forceCoefficients ∧ L'.momentCoefficients = L.momentCoefficients) := by
  obtain ⟨ρ, h1, h2⟩ := perm_renumbering hperm
  have hm : ∀ (a : ℕ) m, ams[a]? = some m → ams'[ρ a]? = some m := by
    intro a m hm
    rw [h1 a (List.getElem?_eq_some_iff.mp hm).1, hm]
  have hre : ReorderedMovements ams ams' ρ (fun _ => id) :=
    ⟨hperm.length_eq.symm, h2, fun a m h => ⟨m, hm a m h, rfl, rfl, rfl, rfl, rfl, fun _ _ _ _ h => h, fun _ _ h => h⟩⟩
  have hdef : SameDefaults ams ams' ρ := by
    intro a m m' e e'
    rw [hm a m e, Option.some.injEq] at e'
    subst e'
    exact ⟨rfl, rfl⟩
  obtain ⟨p', e1, e2, e3, e5, e6, e4⟩ := C71_order ams ams' om ns nc nch dt only p h hc ρ _ hre (.inr hdef)
  refine ⟨ρ, p', h1, h2, e1, e2, e3, e5, e6, ?_⟩
  intro s s₁ z pres sl sl' hr hrun hz
  obtain ⟨z₁, hz₁, hk⟩ := e4 s s₁ z pres sl sl' hr hrun hz
  refine ⟨z₁, hz₁, fun k hkn => ⟨hk k hkn, ?_⟩⟩
  intro hfr a A hA
  obtain ⟨A', L, L', t1, t2, t3, t4, t5, t6, t7⟩ := (hk k hkn).totals hfr a A hA
  obtain ⟨d1, d2, d3⟩ := t6 rfl
  obtain ⟨f1, f2⟩ := t7 d1 d2 d3
  exact ⟨L, L', t2, t3, t4, t5, f1, f2⟩

/-- The hypotheses are met: two airplanes, each a heaving plate, side by side, listed in the other order, for any
amplitude, period, number and length of steps, in a flow along the chord. -/
example (A P : ℝ) (n : ℕ) (hn : 0 < n) (dt density velocity : ℝ) (hdt : 0 < dt) (hv : 0 < velocity)
    (only pres sl : Bool) :
    ∃ am bm om p s s₁, am ≠ bm ∧ study [am, bm] om (some n) none none (some dt) only = .ok p ∧ p.Chordwise ∧
      p.numSteps = n ∧ [am, bm] ~ [bm, am] ∧
      ReorderedMovements [am, bm] [bm, am] (fun a => 1 - a) (fun _ => id) ∧ Reached p s ∧ s.run pres sl = .ok s₁ ∧
      ∀ k < n, ∀ i < k, (⟨0, 0, i, 0⟩ : WakePlace) ∈ wakePlaces p k := by
  obtain ⟨am, bm, hne, p, hp, hmade, hsteps, hd, hper, hst⟩ :=
    PlatePair.movement A P n hn dt { density, velocity, alpha := 0, beta := 0 } only
  have hlen := hmade.regular.steps
  rw [hsteps] at hlen
  obtain ⟨s, hs⟩ : ∃ s, UnsteadySolver.create p = .ok s := by
    unfold UnsteadySolver.create
    cases hsp : p.steadyProblems with
    | nil => rw [hsp] at hlen; simp at hlen; omega
    | cons a l => exact ⟨_, rfl⟩
  have hr : Reached p s := .fresh hs
  obtain ⟨s₁, hrun⟩ := SymmetricPlate.run_of_strips (z := fun k => (oscillatingSinspace A P 0 n dt).getD k 0)
    (op := { density, velocity, alpha := 0, beta := 0 }) hmade hd hdt.le hv.le rfl rfl (by
      intro k hk
      rw [hsteps] at hk
      obtain ⟨ho, a, b, u, v, C, D, c1, c2, c3, c4, c5, -, -, -, c8, c9⟩ := hst k hk
      refine ⟨ho, ⟨0, 0, 0, 0⟩, ⟨1, 0, 0, 0⟩, C, D, ?_, ?_, ?_, c8, c9⟩
      · simp [panelRefs, airplaneRefs, c1, c2, c3, c4, c5, List.zipIdx]
      · simp [panelAt, wingAt, c1, c2, c4]
      · simp [panelAt, wingAt, c1, c3, c5]) hr pres sl
  refine ⟨am, bm, _, p, s, s₁, hne, hp, ?_, hsteps, .swap _ _ _, ?_, hr, hrun, ?_⟩
  · intro w wing hw
    by_cases hk : w.step < n
    · obtain ⟨-, a, b, u, v, C, D, c1, c2, c3, c4, c5, c6, c7, -⟩ := hst _ hk
      unfold UnsteadyProblem.wing? at hw
      rw [c1, Option.bind_eq_some_iff] at hw
      obtain ⟨x, hx, hw⟩ := hw
      have hx' := List.mem_of_getElem? hx
      simp only [List.mem_cons, List.not_mem_nil, or_false] at hx'
      rcases hx' with rfl | rfl
      · rw [c2] at hw
        have := List.mem_of_getElem? hw
        simp only [List.mem_singleton] at this
        subst this
        omega
      · rw [c3] at hw
        have := List.mem_of_getElem? hw
        simp only [List.mem_singleton] at this
        subst this
        omega
    · have hnone : p.steadyProblems[w.step]? = none := by
        rw [List.getElem?_eq_none_iff, hlen]; omega
      simp [UnsteadyProblem.wing?, UnsteadyProblem.airplanesAt, hnone] at hw
  · refine ⟨rfl, fun a b h1 h2 h => by simp at h1 h2; omega, ?_⟩
    intro a m hm
    match a, hm with
    | 0, hm => cases hm; exact ⟨_, rfl, rfl, rfl, rfl, rfl, rfl, fun _ _ _ _ h => h, fun _ _ h => h⟩
    | 1, hm => cases hm; exact ⟨_, rfl, rfl, rfl, rfl, rfl, rfl, fun _ _ _ _ h => h, fun _ _ h => h⟩
  · intro k hk i hi
    obtain ⟨-, a, b, u, v, C, D, c1, c2, -, -, -, -, -, c6, -⟩ := hst k hk
    simp [wakePlaces, c1, c2, c6, List.zipIdx, hi]

end Ptera
