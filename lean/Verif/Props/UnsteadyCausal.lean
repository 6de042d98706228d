import Verif.Lemmas.Causal
import Verif.Props.UnsteadyExample

/-!
# What an unsteady run shows at a step depends on the motion up to that step only

C72: two studies whose airplanes and operating points are the same up to a step show the same flow, wake and loads up to
that step, whatever happens later; in particular a longer run of the same movements begins with the shorter one.
-/

namespace Ptera

open List UnsteadySolver

/-- C72: if two studies have the same time step and, over the first `N` steps, the same airplanes and operating points,
then finished runs of them with the same kind of wake show the same at each of these steps. -/
theorem C72_causal (ams : List AirplaneMovement) (om : OperatingPointMovement) (ns nc nch : Option ℕ) (dt : Option ℝ)
    (only : Bool) (p : UnsteadyProblem) (h : study ams om ns nc nch dt only = .ok p) (hc : p.Chordwise)
    (ams' : List AirplaneMovement) (om' : OperatingPointMovement) (ns' nc' nch' : Option ℕ) (dt' : Option ℝ)
    (only' : Bool) (p' : UnsteadyProblem) (h' : study ams' om' ns' nc' nch' dt' only' = .ok p')
    (hd : p'.deltaTime = p.deltaTime) (N : ℕ) (hN : N ≤ p.numSteps) (hN' : N ≤ p'.numSteps)
    (hsame : ∀ k < N, p'.airplanesAt k = p.airplanesAt k ∧ p'.operatingPointAt k = p.operatingPointAt k)
    (s s₁ z z₁ : UnsteadySolver) (prescribed streamlines streamlines' : Bool) (hs : Reached p s)
    (hrun : s.run prescribed streamlines = .ok s₁) (hz : Reached p' z) (hrun' : z.run prescribed streamlines' = .ok z₁) :
    ∀ k < N, StepAgrees p p' s₁ z₁ k := by
  intro k hk
  have hp := (study_parts h).1
  have hp' := (study_parts h').1
  obtain ⟨q, hst, hq, hqn, hqd, hqs⟩ := study_take h (by omega : 0 < N) hN false
  have hq0 : q.firstResultsStep = 0 := by
    have := (study_parts hst).2.2.2.1
    simpa using this
  obtain ⟨c, hcr⟩ := create_some hq (by omega)
  have hcq : Reached q c := .fresh hcr
  obtain ⟨c₁, hcrun⟩ := run_prefix hq hp (by omega) hqd (by rw [hqn]; exact hqs) hs hrun hcq prescribed false
  have hchord : q.Chordwise := chordwise_of_same hc hq (by rw [hqn]; exact fun k hk => (hqs k hk).1)
  have a := agrees_of_same hq hp hchord (by omega) hqd.symm
    (by rw [hqn]; exact fun k hk => ⟨(hqs k hk).1.symm, (hqs k hk).2.symm⟩) hcq hcrun hs hrun k (by omega)
  have b := agrees_of_same hq hp' hchord (by omega) (by rw [hd, hqd])
    (by rw [hqn]; exact fun k hk => ⟨by rw [(hsame k hk).1, (hqs k hk).1], by rw [(hsame k hk).2, (hqs k hk).2]⟩)
    hcq hcrun hz hrun' k (by omega)
  obtain ⟨a1, a2, a3, a4, a5⟩ := a
  obtain ⟨b1, b2, b3, b4, b5⟩ := b
  have hair := (hqs k hk).1
  have hpl : wakePlaces q k = wakePlaces p k := by unfold wakePlaces; rw [hair]
  rw [hair] at a2 a4 a5 b2 b4 b5
  rw [hpl] at a3 b3
  rw [hq0] at a4 a5 b4 b5
  refine ⟨fun x => by rw [a1, b1], ?_, ?_, ?_, ?_⟩
  · intro r c hc
    obtain ⟨v, e1, e2⟩ := a2 r c hc
    obtain ⟨w, f1, f2⟩ := b2 r c hc
    rw [e1, Option.some.injEq] at f1
    subst f1
    exact ⟨v, e2, f2⟩
  · intro c hc
    obtain ⟨v, e1, e2⟩ := a3 c hc
    obtain ⟨w, f1, f2⟩ := b3 c hc
    rw [e1, Option.some.injEq] at f1
    subst f1
    exact ⟨v, e2, f2⟩
  · intro g g' r c hc
    obtain ⟨v, e1, e2⟩ := a4 (by omega) g r c hc
    obtain ⟨w, f1, f2⟩ := b4 (by omega) g' r c hc
    rw [e1, Option.some.injEq] at f1
    subst f1
    exact ⟨v, e2, f2⟩
  · intro g g' i hi
    obtain ⟨v, e1, e2⟩ := a5 (by omega) g i hi
    obtain ⟨w, f1, f2⟩ := b5 (by omega) g' i hi
    rw [e1, Option.some.injEq] at f1
    subst f1
    exact ⟨v, e2, f2⟩

/-- C72: the same movements with fewer steps of the same length, and with loads computed at all steps or at the final
ones only, are accepted too; the shorter run succeeds if the longer one does, and shows the same at each of its steps. -/
theorem C72_shorter (ams : List AirplaneMovement) (om : OperatingPointMovement) (ns nc nch : Option ℕ) (dt : Option ℝ)
    (only : Bool) (p : UnsteadyProblem) (h : study ams om ns nc nch dt only = .ok p) (hc : p.Chordwise)
    (N : ℕ) (h0 : 0 < N) (hN : N ≤ p.numSteps) (only' : Bool) :
    ∃ q, study ams om (some N) none none (some p.deltaTime) only' = .ok q ∧ q.numSteps = N ∧
      q.deltaTime = p.deltaTime ∧
      ∀ s s₁ z prescribed streamlines streamlines', Reached p s → s.run prescribed streamlines = .ok s₁ → Reached q z →
        ∃ z₁, z.run prescribed streamlines' = .ok z₁ ∧ ∀ k < N, StepAgrees p q s₁ z₁ k := by
  obtain ⟨q, hst, hq, hqn, hqd, hqs⟩ := study_take h h0 hN only'
  have hp := (study_parts h).1
  refine ⟨q, hst, hqn, hqd, ?_⟩
  intro s s₁ z pres sl sl' hs hrun hz
  obtain ⟨z₁, hrun'⟩ := run_prefix hq hp (by omega) hqd (by rw [hqn]; exact hqs) hs hrun hz pres sl'
  exact ⟨z₁, hrun', C72_causal _ _ _ _ _ _ _ p h hc _ _ _ _ _ _ _ q hst hqd N hN hqn.ge hqs s s₁ z z₁ pres sl sl' hs hrun hz
    hrun'⟩

/-- The hypotheses of both are met: a heaving plate over `n` steps and over any smaller positive number `N` of steps, with
loads at all steps in the one and at the final steps only in the other, both with finished runs; from the second step on
there is a wake. -/
example (A P : ℝ) (n N : ℕ) (h0 : 0 < N) (hN : N < n) (dt velocity alpha : ℝ) (ha : |alpha| ≤ 90) (hdt : 0 < dt)
    (hv : 0 < velocity) (pres sl : Bool) :
    ∃ ams om p q s s₁ z z₁, study ams om (some n) none none (some dt) false = .ok p ∧ p.Chordwise ∧ p.numSteps = n ∧
      study ams om (some N) none none (some dt) true = .ok q ∧ q.deltaTime = p.deltaTime ∧ q.numSteps = N ∧
      (∀ k < N, q.airplanesAt k = p.airplanesAt k ∧ q.operatingPointAt k = p.operatingPointAt k) ∧
      Reached p s ∧ s.run pres sl = .ok s₁ ∧ Reached q z ∧ z.run pres sl = .ok z₁ ∧
      ∀ k < N, ∀ i < k, (⟨0, 0, i, 0⟩ : WakePlace) ∈ wakePlaces p k := by
  obtain ⟨w, hw, -, h⟩ := heaving_movement_of 1 A P
  obtain ⟨a, ha1⟩ : ∃ a, Airplane.create [w] = .ok a := ⟨_, rfl⟩
  obtain ⟨-, mv, p, h1, h2, hp, -⟩ := h a n (by omega) dt { velocity := velocity, alpha := alpha, beta := 0 } false
  obtain ⟨s, hs⟩ := hp.create (by omega)
  have hr : Reached p s := .fresh hs
  obtain ⟨s₁, hrun⟩ := hp.run hdt.le hv.le (flies_ahead _ velocity alpha ha) hr pres sl
  have hst : study [{ base := a, wingMovements := [heave w A P] }]
      { base := { velocity := velocity, alpha := alpha, beta := 0 } } (some n) none none (some dt) false = .ok p :=
    bind_ok.mpr ⟨mv, h1, h2⟩
  obtain ⟨q, hq, hqm, hqn, hqd, hqs⟩ := study_take hst h0 (by rw [hp.steps]; omega) true
  obtain ⟨z, hz⟩ := create_some hqm (by omega)
  obtain ⟨z₁, hrun'⟩ := run_prefix hqm hp.made (by rw [hp.steps]; omega) hqd (by rw [hqn]; exact hqs) hr hrun
    (.fresh hz) pres sl
  rw [hp.dt] at hq
  exact ⟨_, _, p, q, s, s₁, z, z₁, hst, hp.chordwise, hp.steps, hq, hqd, hqn, hqs, hr, hrun, .fresh hz, hrun',
    fun k hk i hi => hp.place (by omega) hi⟩

end Ptera
