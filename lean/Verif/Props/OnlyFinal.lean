import Verif.Props.Finals
import Verif.Props.UnsteadyCausal

/-!
# Computing loads at the final steps only

C87: a problem with `only_final_results=True` is accepted exactly when the one with loads at all steps is, its run succeeds
exactly when the other does, shows the same flow, wake and strengths at each step, and reports the same final and averaged
results.
-/

namespace Ptera

open List UnsteadySolver

/-- C87: the choice of computing loads at all steps or at the final ones only changes nothing in what is accepted, in which
runs finish, in what the steps show, and in the final and averaged results. -/
theorem C87_only_final (ams : List AirplaneMovement) (om : OperatingPointMovement) (ns nc nch : Option ℕ) (dt : Option ℝ)
    (only : Bool) (p : UnsteadyProblem) (h : study ams om ns nc nch dt only = .ok p) (hc : p.Chordwise)
    (hdt : 0 < p.deltaTime) (hP : 0 ≤ p.maxPeriod) (only' : Bool) :
    ∃ p', study ams om ns nc nch dt only' = .ok p' ∧ p'.numSteps = p.numSteps ∧ p'.deltaTime = p.deltaTime ∧
      p'.maxPeriod = p.maxPeriod ∧ p'.firstAveragingStep = p.firstAveragingStep ∧
      ∀ s s₁ z prescribed streamlines streamlines', Reached p s → s.run prescribed streamlines = .ok s₁ → Reached p' z →
        ∃ z₁, z.run prescribed streamlines' = .ok z₁ ∧ (∀ k < p.numSteps, StepAgrees p p' s₁ z₁ k) ∧
          FinalsFollow ams.length id ⟨⟨1, 1, 1⟩, ⟨1, 1, 1⟩, ⟨1, 1, 1⟩, ⟨1, 1, 1⟩⟩ s s₁ z z₁ := by
  obtain ⟨mv, h1, h2⟩ := bind_ok.mp h
  have h2' := h2
  unfold UnsteadyProblem.create at h2'
  obtain ⟨P, e1, h2'⟩ := bind_ok.mp h2'
  obtain ⟨pr, e2, e3⟩ := bind_ok.mp h2'
  have e3 := pure_ok.mp e3
  obtain ⟨p', hp'⟩ : ∃ p' : UnsteadyProblem, UnsteadyProblem.create mv only' = .ok p' ∧ p'.numSteps = p.numSteps ∧
      p'.deltaTime = p.deltaTime ∧ p'.maxPeriod = p.maxPeriod ∧ p'.firstAveragingStep = p.firstAveragingStep ∧
      p'.steadyProblems = p.steadyProblems := by
    subst e3
    refine ⟨_, bind_ok.mpr ⟨P, e1, bind_ok.mpr ⟨pr, e2, rfl⟩⟩, rfl, rfl, rfl, rfl, rfl⟩
  obtain ⟨hcr, hn, hd, hmax, hav, hst⟩ := hp'
  have h' : study ams om ns nc nch dt only' = .ok p' := bind_ok.mpr ⟨mv, h1, hcr⟩
  have hm := (study_parts h).1
  have hm' := (study_parts h').1
  have hsame : ∀ k < p.numSteps, p'.airplanesAt k = p.airplanesAt k ∧ p'.operatingPointAt k = p.operatingPointAt k := by
    intro k _
    simp only [UnsteadyProblem.airplanesAt, UnsteadyProblem.operatingPointAt, hst, and_self]
  refine ⟨p', h', hn, hd, hmax, hav, ?_⟩
  intro s s₁ z pres sl sl' hs hrun hz
  obtain ⟨z₁, hrun'⟩ := run_prefix hm' hm hn.le hd (by rw [hn]; exact hsame) hs hrun hz pres sl'
  have hall := C72_causal ams om ns nc nch dt only p h hc ams om ns nc nch dt only' p' h' hd p.numSteps le_rfl hn.ge hsame
    s s₁ z z₁ pres sl sl' hs hrun hz hrun'
  refine ⟨z₁, hrun', hall, ?_⟩
  have hpos : 0 < p.numSteps := hs.steps hm
  obtain ⟨w1, w2, w3, -⟩ := hm.window hpos hdt hP
  obtain ⟨-, w2', -, -⟩ := hm'.window (by omega) (by rw [hd]; exact hdt) (by rw [hmax]; exact hP)
  have hlen := study_airplanes_length h
  have hlen' := study_airplanes_length h'
  have := finals_follow hm hm' hs hrun hz hrun' hn hav (by rw [hmax])
    (by rw [hlen 0 hpos, hlen' 0 (by omega)]) id (fun _ hi => hi) ⟨⟨1, 1, 1⟩, ⟨1, 1, 1⟩, ⟨1, 1, 1⟩, ⟨1, 1, 1⟩⟩
    (by
      intro k g1 g2 i hi
      rw [hlen 0 hpos, ← hlen k g2] at hi
      obtain ⟨L, e1, e2⟩ := (hall k g2).totals (by omega) (by omega) i hi
      refine ⟨L, L, e1, e2, ?_⟩
      simp only [LoadFactors.Holds, V3.one_times, and_self])
  rwa [hlen 0 hpos] at this

/-- The hypotheses are met: a heaving plate with loads at all steps has a finished run, and with a period of at least one
step there are more steps than those with results when only the final results are asked for. -/
example (A P : ℝ) (n : ℕ) (hn : 0 < n) (dt velocity alpha : ℝ) (ha : |alpha| ≤ 90) (hdt : 0 < dt)
    (hP : 0 < P) (hPn : P + dt ≤ n * dt) (hv : 0 < velocity) (pres sl : Bool) :
    ∃ ams om p p' s s₁ z, study ams om (some n) none none (some dt) false = .ok p ∧ p.Chordwise ∧ 0 < p.deltaTime ∧
      0 < p.maxPeriod ∧ study ams om (some n) none none (some dt) true = .ok p' ∧ p.firstResultsStep = 0 ∧
      0 < p'.firstResultsStep ∧ Reached p s ∧ s.run pres sl = .ok s₁ ∧ Reached p' z := by
  obtain ⟨w, hw, -, h⟩ := heaving_movement_of 1 A P
  obtain ⟨a, ha1⟩ : ∃ a, Airplane.create [w] = .ok a := ⟨_, rfl⟩
  obtain ⟨hmx, mv, p, h1, h2, hp, -⟩ := h a n hn dt { velocity := velocity, alpha := alpha, beta := 0 } false
  obtain ⟨s, hs⟩ := hp.create hn
  have hr : Reached p s := .fresh hs
  obtain ⟨s₁, hrun⟩ := hp.run hdt.le hv.le (flies_ahead _ velocity alpha ha) hr pres sl
  have hst : study [{ base := a, wingMovements := [heave w A P] }]
      { base := { velocity := velocity, alpha := alpha, beta := 0 } } (some n) none none (some dt) false = .ok p :=
    bind_ok.mpr ⟨mv, h1, h2⟩
  have hmp : p.maxPeriod = P := by
    have := (study_parts hst).2.2.2.2.1
    rw [hmx, Except.ok.injEq, max_eq_right hP.le] at this
    exact this.symm
  obtain ⟨p', hp', hn', hd', hm', ha', -⟩ := C87_only_final _ _ _ _ _ _ _ p hst hp.chordwise (by rw [hp.dt]; exact hdt)
    (by rw [hmp]; exact hP.le) true
  obtain ⟨z, hz⟩ := create_some (study_parts hp').1 (by rw [hn', hp.steps]; exact hn)
  refine ⟨_, _, p, p', s, s₁, z, hst, hp.chordwise, by rw [hp.dt]; exact hdt, by rw [hmp]; exact hP, hp', ?_, ?_, hr, hrun,
    .fresh hz⟩
  · have := (study_parts hst).2.2.2.1
    simpa using this
  · rw [(study_parts hp').2.2.2.1, if_pos rfl, (study_parts hp').2.2.1, hn', hm', hd', hmp, hp.steps, hp.dt]
    unfold averagingStart
    rw [if_neg hP.ne']
    refine lt_max_of_lt_right ?_
    have : (1 : ℝ) ≤ (n : ℝ) - P / dt := by
      rw [le_sub_iff_add_le, ← le_sub_iff_add_le', div_le_iff₀ hdt]
      linarith
    exact Int.lt_iff_add_one_le.mpr (Int.le_floor.mpr (by simpa using this))

end Ptera
