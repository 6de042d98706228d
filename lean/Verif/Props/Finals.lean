import Verif.Lemmas.Finals
import Verif.Props.UnsteadyVariations
import Verif.Props.UnsteadyOrder
import Verif.Props.UnsteadyMirror
import Verif.Props.UpsideDown
import Verif.Props.Faster

/-!
# Final and averaged results of changed studies

C87: what a run reports at its end, the final loads of a static problem or the means and root-mean-squares over the last
cycle of a periodic one, follows the same laws as the loads of the single steps. (That these results exist, one for each
airplane, is part of C47.)
-/

namespace Ptera

open List UnsteadySolver

/-- From the loads of all steps with results to the final results. -/
theorem finals_of_steps {p p' : UnsteadyProblem} {s s₁ z z₁ : UnsteadySolver} {pres sl pres' sl' : Bool} {n : ℕ}
    (hm : p.Made) (hm' : p'.Made) (hlen : ∀ k < p.numSteps, (p.airplanesAt k).length = n)
    (hlen' : ∀ k < p'.numSteps, (p'.airplanesAt k).length = n)
    (hdt : 0 < p.deltaTime) (hP : 0 ≤ p.maxPeriod) (hn : p'.numSteps = p.numSteps)
    (ha : p'.firstAveragingStep = p.firstAveragingStep) (hP' : p'.maxPeriod = 0 ↔ p.maxPeriod = 0)
    (hr : Reached p s) (hrun : s.run pres sl = .ok s₁) (hz : Reached p' z) (hrun' : z.run pres' sl' = .ok z₁)
    (ρ : ℕ → ℕ) (hρ : ∀ i < n, ρ i < n) (f : LoadFactors)
    (hk : ∀ k < p.numSteps, p.firstResultsStep ≤ k → ∀ (a : ℕ) A, (p.airplanesAt k)[a]? = some A → ∃ L L',
      (s₁.loads k)[a]? = some L ∧ (z₁.loads k)[ρ a]? = some L' ∧ f.Holds L L') :
    FinalsFollow n ρ f s s₁ z z₁ := by
  have hpos : 0 < p.numSteps := hr.steps hm
  obtain ⟨w1, w2, w3, -⟩ := hm.window hpos hdt hP
  have := finals_follow hm hm' hr hrun hz hrun' hn ha hP' (by rw [hlen 0 hpos, hlen' 0 (by omega)]) ρ
    (by rw [hlen 0 hpos]; exact hρ) f
    (by
      rw [hlen 0 hpos]
      intro k h1 h2 i hi
      rw [← hlen k h2] at hi
      exact hk k h2 (by omega) i _ (List.getElem?_eq_getElem hi))
  rwa [hlen 0 hpos] at this

section
variable (ams ams' : List AirplaneMovement) (om : OperatingPointMovement) (ns nc nch : Option ℕ) (dt : Option ℝ)
  (only : Bool) (p p' : UnsteadyProblem) (s s₁ z z₁ : UnsteadySolver) (prescribed streamlines streamlines' : Bool)

/-- C87, another density: final and averaged forces and moments are `κ` times those of the first study (root-mean-squares
`|κ|` times), the coefficients are the same. -/
theorem C87_density (h : study ams om ns nc nch dt only = .ok p) (hc : p.Chordwise) (hdt : 0 < p.deltaTime)
    (hP : 0 ≤ p.maxPeriod) (κ : ℝ) (hκ : κ ≠ 0)
    (h' : study ams { om with base := { om.base with density := κ * om.base.density } } ns nc nch dt only = .ok p')
    (hr : Reached p s) (hrun : s.run prescribed streamlines = .ok s₁) (hz : Reached p' z)
    (hrun' : z.run prescribed streamlines' = .ok z₁) :
    FinalsFollow ams.length id ⟨⟨κ, κ, κ⟩, ⟨κ, κ, κ⟩, ⟨1, 1, 1⟩, ⟨1, 1, 1⟩⟩ s s₁ z z₁ := by
  obtain ⟨p'', h'', hn, hd, hP', ha, hall⟩ := C68_density ams om ns nc nch dt only p h hc κ hκ
  rw [h', Except.ok.injEq] at h''
  subst h''
  obtain ⟨z₂, hz₂, hk⟩ := hall s s₁ z prescribed streamlines streamlines' hr hrun hz
  rw [hrun', Except.ok.injEq] at hz₂
  subst hz₂
  refine finals_of_steps (study_parts h).1 (study_parts h').1 (study_airplanes_length h) (study_airplanes_length h')
    hdt hP hn ha (by rw [hP']) hr hrun hz hrun' id (fun _ hi => hi) _ ?_
  intro k hkn hfr a A hA
  obtain ⟨L, L', e1, e2, e3, e4, e5, e6⟩ := (hk k hkn).totals hfr a A hA
  refine ⟨L, L', e1, e2, ?_⟩
  simp only [LoadFactors.Holds, V3.const_times, one_smul]
  exact ⟨e3, e4, e5, e6⟩

/-- C87, another place: all final and averaged results are the same. -/
theorem C87_position (h : study ams om ns nc nch dt only = .ok p) (hc : p.Chordwise) (hdt : 0 < p.deltaTime)
    (hP : 0 ≤ p.maxPeriod) (t : V3) (hams : Forall₂ (AirplaneMovement.Shifted t) ams ams')
    (h' : study ams' om ns nc nch dt only = .ok p')
    (hr : Reached p s) (hrun : s.run prescribed streamlines = .ok s₁) (hz : Reached p' z)
    (hrun' : z.run prescribed streamlines' = .ok z₁) :
    FinalsFollow ams.length id ⟨⟨1, 1, 1⟩, ⟨1, 1, 1⟩, ⟨1, 1, 1⟩, ⟨1, 1, 1⟩⟩ s s₁ z z₁ := by
  obtain ⟨p'', h'', hn, hd, hP', ha, hall⟩ := C69_position ams ams' om ns nc nch dt only p h hc t hams
  rw [h', Except.ok.injEq] at h''
  subst h''
  obtain ⟨z₂, hz₂, hk⟩ := hall s s₁ z prescribed streamlines streamlines' hr hrun hz
  rw [hrun', Except.ok.injEq] at hz₂
  subst hz₂
  refine finals_of_steps (study_parts h).1 (study_parts h').1 (study_airplanes_length h)
    (fun k hkn => by rw [study_airplanes_length h' k hkn, hams.length_eq])
    hdt hP hn ha (by rw [hP']) hr hrun hz hrun' id (fun _ hi => hi) _ ?_
  intro k hkn hfr a A hA
  obtain ⟨L, L', e1, e2, e3, e4, e5, e6⟩ := (hk k hkn).totals hfr a A hA
  refine ⟨L, L', e1, e2, ?_⟩
  simp only [LoadFactors.Holds, V3.one_times]
  rw [one_smul] at e3 e4
  exact ⟨e3, e4, e5, e6⟩

/-- C87, airplanes in another order: the final and averaged results of each airplane are the same, listed in the new
order. -/
theorem C87_order (hperm : ams ~ ams') (h : study ams om ns nc nch dt only = .ok p) (hc : p.Chordwise)
    (hdt : 0 < p.deltaTime) (hP : 0 ≤ p.maxPeriod) (h' : study ams' om ns nc nch dt only = .ok p')
    (hr : Reached p s) (hrun : s.run prescribed streamlines = .ok s₁) (hz : Reached p' z)
    (hrun' : z.run prescribed streamlines' = .ok z₁) :
    ∃ ρ : ℕ → ℕ, (∀ a < ams.length, ams'[ρ a]? = ams[a]?) ∧
      (∀ a b, a < ams.length → b < ams.length → ρ a = ρ b → a = b) ∧
      FinalsFollow ams.length ρ ⟨⟨1, 1, 1⟩, ⟨1, 1, 1⟩, ⟨1, 1, 1⟩, ⟨1, 1, 1⟩⟩ s s₁ z z₁ := by
  obtain ⟨ρ, p'', h1, h2, h'', hn, hd, hP', ha, hall⟩ := C71_airplanes ams ams' hperm om ns nc nch dt only p h hc
  rw [h', Except.ok.injEq] at h''
  subst h''
  obtain ⟨z₂, hz₂, hk⟩ := hall s s₁ z prescribed streamlines streamlines' hr hrun hz
  rw [hrun', Except.ok.injEq] at hz₂
  subst hz₂
  refine ⟨ρ, h1, h2, ?_⟩
  refine finals_of_steps (study_parts h).1 (study_parts h').1 (study_airplanes_length h)
    (fun k hkn => by rw [study_airplanes_length h' k hkn, hperm.length_eq])
    hdt hP hn ha (by rw [hP']) hr hrun hz hrun' ρ ?_ _ ?_
  · intro i hi
    have e := h1 i hi
    rw [List.getElem?_eq_getElem hi] at e
    rw [hperm.length_eq]
    exact (List.getElem?_eq_some_iff.mp e).1
  · intro k hkn hfr a A hA
    obtain ⟨L, L', e1, e2, e3, e4, e5, e6⟩ := (hk k hkn).2 hfr a A hA
    refine ⟨L, L', e1, e2, ?_⟩
    simp only [LoadFactors.Holds, V3.one_times]
    exact ⟨e3, e4, e5, e6⟩

/-- C87, sideslip reversed, for airplanes that move symmetrically: the side force and the rolling and yawing moments
reported at the end change sign, also in the coefficients and means; everything else, and all root-mean-squares, are the
same. -/
theorem C87_sideslip_reversed (h : study ams om ns nc nch dt only = .ok p) (hc : p.Chordwise) (hdt : 0 < p.deltaTime)
    (hP : 0 ≤ p.maxPeriod) (hsym : ∀ m ∈ ams, m.Symmetric)
    (h' : study ams { om with base := { om.base with beta := -om.base.beta } } ns nc nch dt only = .ok p')
    (hr : Reached p s) (hrun : s.run prescribed streamlines = .ok s₁) (hz : Reached p' z)
    (hrun' : z.run prescribed streamlines' = .ok z₁) :
    FinalsFollow ams.length id ⟨⟨1, -1, 1⟩, ⟨-1, 1, -1⟩, ⟨1, -1, 1⟩, ⟨-1, 1, -1⟩⟩ s s₁ z z₁ := by
  obtain ⟨p'', h'', hn, hd, hP', ha, hall⟩ := C70_sideslip_reversed ams om ns nc nch dt only p h hc hsym
  rw [h', Except.ok.injEq] at h''
  subst h''
  obtain ⟨z₂, hz₂, hk⟩ := hall s s₁ z prescribed streamlines streamlines' hr hrun hz
  rw [hrun', Except.ok.injEq] at hz₂
  subst hz₂
  refine finals_of_steps (study_parts h).1 (study_parts h').1 (study_airplanes_length h) (study_airplanes_length h')
    hdt hP hn ha (by rw [hP']) hr hrun hz hrun' id (fun _ hi => hi) _ ?_
  intro k hkn hfr a A hA
  obtain ⟨L, L', e1, e2, e3, e4, e5, e6⟩ := (hk k hkn).totals hfr a A hA
  refine ⟨L, L', e1, e2, ?_⟩
  rw [LoadFactors.Holds, e3, e4, e5, e6]
  refine ⟨?_, ?_, ?_, ?_⟩ <;> ext <;> simp [V3.times, mirrored]

/-- C87, upside down, with the angle of attack reversed: the lift and the rolling and pitching moments reported at the end
change sign; everything else, and all root-mean-squares, are the same. -/
theorem C87_upside_down (h : study ams om ns nc nch dt only = .ok p) (hc : p.Chordwise) (hdt : 0 < p.deltaTime)
    (hP : 0 ≤ p.maxPeriod) (hinv : Forall₂ AirplaneMovement.IsInverted ams ams')
    (h' : study ams' { om with base := { om.base with alpha := -om.base.alpha } } ns nc nch dt only = .ok p')
    (hr : Reached p s) (hrun : s.run prescribed streamlines = .ok s₁) (hz : Reached p' z)
    (hrun' : z.run prescribed streamlines' = .ok z₁) :
    FinalsFollow ams.length id ⟨⟨1, 1, -1⟩, ⟨-1, -1, 1⟩, ⟨1, 1, -1⟩, ⟨-1, -1, 1⟩⟩ s s₁ z z₁ := by
  obtain ⟨p'', h'', hn, hd, hP', ha, -, hall⟩ := C77_unsteady ams ams' om ns nc nch dt only p h hc hinv
  rw [h', Except.ok.injEq] at h''
  subst h''
  obtain ⟨z₂, hz₂, hk⟩ := hall s s₁ z prescribed streamlines streamlines' hr hrun hz
  rw [hrun', Except.ok.injEq] at hz₂
  subst hz₂
  refine finals_of_steps (study_parts h).1 (study_parts h').1 (study_airplanes_length h)
    (fun k hkn => by rw [study_airplanes_length h' k hkn, hinv.length_eq])
    hdt hP hn ha (by rw [hP']) hr hrun hz hrun' id (fun _ hi => hi) _ ?_
  intro k hkn hfr a A hA
  obtain ⟨L, L', e1, e2, e3, e4, e5, e6⟩ := (hk k hkn).totals hfr a A hA
  refine ⟨L, L', e1, e2, ?_⟩
  rw [LoadFactors.Holds, e3, e4, e5, e6]
  refine ⟨?_, ?_, ?_, ?_⟩ <;> ext <;> simp [V3.times, inverted]

/-- C87, everything `c` times as fast: final and averaged forces and moments are `c ^ 2` times as large, and the
coefficients are the same. -/
theorem C87_faster (h : study ams om ns nc nch dt only = .ok p) (hdt : 0 < p.deltaTime) (hP : 0 ≤ p.maxPeriod) (c : ℝ)
    (hc : 0 < c) (h' : study (ams.map (·.faster c)) (om.faster c) ns nc nch (dt.map (· / c)) only = .ok p') (nu : ℕ → ℝ)
    (hnu : ∀ k, 0 ≤ nu k) (hr : Reached (p.withViscosity nu) s) (hrun : s.run prescribed streamlines = .ok s₁)
    (hz : Reached (p'.withViscosity fun k => c * nu k) z) (hrun' : z.run prescribed streamlines' = .ok z₁) :
    FinalsFollow ams.length id ⟨⟨c ^ 2, c ^ 2, c ^ 2⟩, ⟨c ^ 2, c ^ 2, c ^ 2⟩, ⟨1, 1, 1⟩, ⟨1, 1, 1⟩⟩ s s₁ z z₁ := by
  obtain ⟨p'', h'', hn, hd, hP', ha, hf, -, hall⟩ := C86_faster ams om ns nc nch dt only p h c hc
  rw [h', Except.ok.injEq] at h''
  subst h''
  obtain ⟨z₂, hz₂, hk⟩ := hall nu hnu s s₁ z prescribed streamlines streamlines' hr hrun hz
  rw [hrun', Except.ok.injEq] at hz₂
  subst hz₂
  refine finals_of_steps (p := p.withViscosity nu) (p' := p'.withViscosity fun k => c * nu k)
    ((study_parts h).1.withViscosity nu hnu) ((study_parts h').1.withViscosity _ fun k => mul_nonneg hc.le (hnu k))
    (fun k hkn => by rw [p.withViscosity_airplanes, study_airplanes_length h k hkn])
    (fun k hkn => by rw [p'.withViscosity_airplanes, study_airplanes_length h' k hkn, List.length_map])
    hdt hP hn ha ?_ hr hrun hz hrun' id (fun _ hi => hi) _ ?_
  · show p'.maxPeriod = 0 ↔ p.maxPeriod = 0
    rw [hP', div_eq_zero_iff]
    simp [hc.ne']
  · intro k hkn hfr a A hA
    obtain ⟨L, L', e1, e2, e3, e4, e5, e6⟩ := (hk k hkn).totals hfr a A hA
    refine ⟨L, L', e1, e2, ?_⟩
    simp only [LoadFactors.Holds, V3.const_times, one_smul]
    exact ⟨e3, e4, e5, e6⟩

/-- C87, without sideslip: airplanes that move symmetrically report no side force, no rolling and no yawing moment at the
end of a run, in the final loads, the means and the root-mean-squares, nor in any coefficient. -/
theorem C87_no_sideslip (h : study ams om ns nc nch dt only = .ok p) (hc : p.Chordwise) (hdt : 0 < p.deltaTime)
    (hP : 0 ≤ p.maxPeriod) (hsym : ∀ m ∈ ams, m.Symmetric) (hβ : om.base.beta = 0) (hr : Reached p s)
    (hrun : s.run prescribed streamlines = .ok s₁) :
    ∀ l ∈ [(s.final, s₁.final), (s.finalMean, s₁.finalMean), (s.finalRms, s₁.finalRms)], ∀ i < ams.length,
      (∀ v, addedResult l.1.forces l.2.forces i = some v → v.y = 0) ∧
      (∀ v, addedResult l.1.moments l.2.moments i = some v → v.x = 0 ∧ v.z = 0) ∧
      (∀ v, addedResult l.1.forceCoefficients l.2.forceCoefficients i = some v → v.y = 0) ∧
      (∀ v, addedResult l.1.momentCoefficients l.2.momentCoefficients i = some v → v.x = 0 ∧ v.z = 0) := by
  have hm := (study_parts h).1
  have hpos := hr.steps hm
  obtain ⟨w1, w2, w3, -⟩ := hm.window hpos hdt hP
  have hk := fun k hkn => (C70_no_sideslip ams om ns nc nch dt only p h hc hsym hβ s s₁ prescribed streamlines hr hrun k
    hkn).2.2
  have hf : FinalsFollow ams.length id ⟨⟨1, 0, 1⟩, ⟨0, 1, 0⟩, ⟨1, 0, 1⟩, ⟨0, 1, 0⟩⟩ s s₁ s s₁ := by
    refine finals_of_steps hm hm (study_airplanes_length h) (study_airplanes_length h) hdt hP rfl rfl Iff.rfl hr hrun hr
      hrun id (fun _ hi => hi) _ ?_
    intro k hkn hfr a A hA
    obtain ⟨L, e1, e2, e3, e4, e5, e6, e7⟩ := hk k hkn hfr a A hA
    refine ⟨L, L, e1, e1, ?_⟩
    refine ⟨?_, ?_, ?_, ?_⟩ <;> ext <;> simp [V3.times, e2, e3, e4, e5, e6, e7]
  have key : ∀ (l l₁ : ResultLists) (i : ℕ), i < ams.length → ∀ d : V3 → V3, d = id ∨ d = V3.size →
      (∀ q ∈ (⟨⟨1, 0, 1⟩, ⟨0, 1, 0⟩, ⟨1, 0, 1⟩, ⟨0, 1, 0⟩⟩ : LoadFactors).each, ∀ i < ams.length,
        addedResult (q.1 l) (q.1 l₁) (id i) = (addedResult (q.1 l) (q.1 l₁) i).map (d q.2).times) →
      (∀ v, addedResult l.forces l₁.forces i = some v → v.y = 0) ∧
      (∀ v, addedResult l.moments l₁.moments i = some v → v.x = 0 ∧ v.z = 0) ∧
      (∀ v, addedResult l.forceCoefficients l₁.forceCoefficients i = some v → v.y = 0) ∧
      (∀ v, addedResult l.momentCoefficients l₁.momentCoefficients i = some v → v.x = 0 ∧ v.z = 0) := by
    intro l l₁ i hi d hd hq
    simp only [LoadFactors.each, List.forall_mem_cons, List.not_mem_nil, false_imp_iff, implies_true, and_true, id] at hq
    obtain ⟨q1, q2, q3, q4⟩ := hq
    have z1 : ∀ v w : V3, v = (d ⟨1, 0, 1⟩).times w → v.y = 0 := by
      rintro v w rfl
      rcases hd with rfl | rfl <;> simp [V3.times, V3.size]
    have z2 : ∀ v w : V3, v = (d ⟨0, 1, 0⟩).times w → v.x = 0 ∧ v.z = 0 := by
      rintro v w rfl
      rcases hd with rfl | rfl <;> simp [V3.times, V3.size]
    refine ⟨?_, ?_, ?_, ?_⟩
    · intro v hv
      have := q1 i hi
      rw [hv, Option.map_some, Option.some.injEq] at this
      exact z1 _ _ this
    · intro v hv
      have := q3 i hi
      rw [hv, Option.map_some, Option.some.injEq] at this
      exact z2 _ _ this
    · intro v hv
      have := q2 i hi
      rw [hv, Option.map_some, Option.some.injEq] at this
      exact z1 _ _ this
    · intro v hv
      have := q4 i hi
      rw [hv, Option.map_some, Option.some.injEq] at this
      exact z2 _ _ this
  intro l hl i hi
  simp only [List.mem_cons, List.not_mem_nil, or_false] at hl
  rcases hl with rfl | rfl | rfl
  · exact key _ _ i hi id (.inl rfl) hf.final
  · exact key _ _ i hi id (.inl rfl) hf.mean
  · exact key _ _ i hi V3.size (.inr rfl) hf.rms

end

/-- The hypotheses are met by a heaving rectangular wing built with `symmetric=True`, for any amplitude, period, number and
length of steps, in a flow along the chord, and in the same flow with another density; with a period, means and
root-mean-squares are reported. -/
example (A P : ℝ) (n : ℕ) (hn : 0 < n) (dt density velocity κ : ℝ) (hdt : 0 < dt) (hv : 0 < velocity)
    (only pres sl : Bool) :
    ∃ ams om p p' s s₁ z z₁, study ams om (some n) none none (some dt) only = .ok p ∧ p.Chordwise ∧ 0 < p.deltaTime ∧
      p.maxPeriod = max 0 P ∧
      study ams { om with base := { om.base with density := κ * om.base.density } } (some n) none none (some dt) only
        = .ok p' ∧
      (∀ m ∈ ams, m.Symmetric) ∧ om.base.beta = 0 ∧ Reached p s ∧ s.run pres sl = .ok s₁ ∧ Reached p' z ∧
      z.run pres sl = .ok z₁ ∧
      (0 < P → ∃ v, addedResult s.finalMean.forces s₁.finalMean.forces 0 = some v) := by
  obtain ⟨am, hsym, hall⟩ := SymmetricPlate.movement_of A P
  obtain ⟨p, hp, hmax, hst⟩ := hall n hn dt { density, velocity, alpha := 0, beta := 0 } only
  obtain ⟨p', hp', -, hst'⟩ := hall n hn dt { density := κ * density, velocity, alpha := 0, beta := 0 } only
  obtain ⟨s, hs⟩ := hst.create hn
  obtain ⟨z, hz⟩ := hst'.create hn
  obtain ⟨s₁, hrun⟩ := hst.run hdt.le hv.le rfl rfl (.fresh hs) pres sl
  obtain ⟨z₁, hrun'⟩ := hst'.run hdt.le hv.le rfl rfl (.fresh hz) pres sl
  refine ⟨_, _, p, p', s, s₁, z, z₁, hp, hst.chordwise, by rw [hst.dt]; exact hdt, hmax, hp', by simpa using hsym, rfl,
    .fresh hs, hrun, .fresh hz, hrun', ?_⟩
  intro hPp
  obtain ⟨-, -, hq⟩ := C47_periodic hst.made (.fresh hs) hrun (by rw [hst.dt]; exact hdt)
    (by rw [hmax]; exact lt_max_of_lt_right hPp)
  obtain ⟨-, -, hi⟩ := hq (ResultLists.forces, AirplaneLoads.forceWind) (by simp [loadQuantities])
  obtain ⟨v, -, -, hv, -⟩ := hi 0 (by
    rw [study_airplanes_length hp 0 (by rw [hst.steps]; exact hn)]
    simp)
  exact ⟨v, hv⟩

end Ptera
