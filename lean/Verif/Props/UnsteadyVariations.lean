import Verif.Lemmas.Shifted
import Verif.Props.MirrorRuns

/-!
# Unsteady results and the density of the fluid and the place of the airplanes

C68: the density scales the loads and changes nothing else. C69: the place of the airplanes changes nothing but the
place of the flow.
-/

namespace Ptera

open List UnsteadySolver

/-- C68: changing only the density of the fluid by a factor `κ` leaves the flow, the strengths of the vortices and the
wake as they are at every step, scales all forces and moments by `κ`, and leaves the coefficients as they are. In
particular the changed study is accepted if the first is, and its run succeeds if the first does. -/
theorem C68_density (ams : List AirplaneMovement) (om : OperatingPointMovement) (ns nc nch : Option ℕ) (dt : Option ℝ)
    (only : Bool) (p : UnsteadyProblem) (h : study ams om ns nc nch dt only = .ok p) (hc : p.Chordwise) (κ : ℝ)
    (hκ : κ ≠ 0) :
    ∃ p', study ams { om with base := { om.base with density := κ * om.base.density } } ns nc nch dt only = .ok p' ∧
      p'.numSteps = p.numSteps ∧ p'.deltaTime = p.deltaTime ∧ p'.maxPeriod = p.maxPeriod ∧
      p'.firstAveragingStep = p.firstAveragingStep ∧
      ∀ s s₁ z prescribed streamlines streamlines', Reached p s → s.run prescribed streamlines = .ok s₁ → Reached p' z →
        ∃ z₁, z.run prescribed streamlines' = .ok z₁ ∧ ∀ k < p.numSteps, StepCorresponds p 0 κ s₁ z₁ k := by
  obtain ⟨p', h', hm', hn, hd, hP', ha', hf, -, H, H', O, O', rfl, hO, hk⟩ :=
    study_varied (ams' := ams) (om' := { om with base := { om.base with density := κ * om.base.density } }) h rfl
      (by cases dt <;> rfl) (fun d => by cases ns <;> rfl) (fun H H' => H' = H)
      (fun O O' => O' = O.map fun o => { o with density := κ * o.density })
      (fun n d H hH => ⟨H, hH, rfl⟩) (by
        intro n d O hO
        unfold OperatingPointMovement.generate at hO ⊢
        obtain ⟨vs, h1, h2⟩ := bind_ok.mp hO
        rw [pure_ok] at h2
        subst h2
        refine ⟨_, bind_ok.mpr ⟨vs, h1, rfl⟩, ?_⟩
        rw [List.map_map]; rfl)
  refine ⟨p', h', hn, hd, hP', ha', ?_⟩
  have hair : ∀ k < p.numSteps, p'.airplanesAt k = p.airplanesAt k := by
    intro k hkn
    obtain ⟨a1, a2, -, -⟩ := hk k hkn
    apply List.ext_getElem?
    intro i
    rcases Nat.lt_or_ge i H'.length with hi | hi
    · have hx := List.getElem?_eq_getElem hi
      obtain ⟨A, hA, e⟩ := forall₂_at a1 i _ hx
      obtain ⟨A', hA', e'⟩ := forall₂_at a2 i _ hx
      rw [e, Option.some.injEq] at e'
      rw [hA, hA', e']
    · rw [List.getElem?_eq_none (by rw [← a2.length_eq]; exact hi),
        List.getElem?_eq_none (by rw [← a1.length_eq]; exact hi)]
  have hop : ∀ k < p.numSteps, p'.operatingPointAt k =
      { p.operatingPointAt k with density := κ * (p.operatingPointAt k).density } := by
    intro k hkn
    obtain ⟨-, -, a3, a4⟩ := hk k hkn
    rw [hO, List.getElem?_map, a3, Option.map_some, Option.some.injEq] at a4
    exact a4.symm
  have hmade := (study_parts h).1
  have hs : SimilarUnsteady p p' M3.one 0 (fun _ _ => false) κ id (fun _ => id) :=
    { made := hmade, made' := hm', chordwise := hc, steps := hn.ge, time := hd
      similar := by
        intro k hkn
        exact {
          airplanes := by simp only [hair k hkn]; exact SimilarAirplanes.refl _
          made := hmade.regular.made k
          made' := hm'.regular.made k
          nonzero := one_ne_zero
          direction := by simp only [hop k hkn, one_mulVec]; rfl
          velocity := by simp only [hop k hkn, one_mulVec, one_smul]; rfl
          density := by simp only [hop k hkn] }
      nu := by intro k hkn; rw [hop k hkn]
      shared := by intro k _ a w hw; cases hw }
  intro s s₁ z pres sl sl' hr hrun hz
  refine hs.corresponds hn.le hκ hf ?_ ?_ ?_ hr hrun hz sl'
  · intro k hkn; rw [hop k hkn]; rfl
  · intro k hkn; simp only [hop k hkn]; ring
  · intro k hkn a A A' hA hA'
    rw [hair k hkn, hA, Option.some.injEq] at hA'
    subst hA'
    exact ⟨rfl, rfl, rfl⟩

/-- C69: the same movements of the same airplanes, built at a place moved by `t`, are accepted if the first are, their
run succeeds if the first does, and it shows, at every step, the flow and the wake moved by `t` and the same vortex
strengths, forces, moments and coefficients. -/
theorem C69_position (ams ams' : List AirplaneMovement) (om : OperatingPointMovement) (ns nc nch : Option ℕ)
    (dt : Option ℝ) (only : Bool) (p : UnsteadyProblem) (h : study ams om ns nc nch dt only = .ok p) (hc : p.Chordwise)
    (t : V3) (hams : Forall₂ (AirplaneMovement.Shifted t) ams ams') :
    ∃ p', study ams' om ns nc nch dt only = .ok p' ∧
      p'.numSteps = p.numSteps ∧ p'.deltaTime = p.deltaTime ∧ p'.maxPeriod = p.maxPeriod ∧
      p'.firstAveragingStep = p.firstAveragingStep ∧
      ∀ s s₁ z prescribed streamlines streamlines', Reached p s → s.run prescribed streamlines = .ok s₁ → Reached p' z →
        ∃ z₁, z.run prescribed streamlines' = .ok z₁ ∧ ∀ k < p.numSteps, StepCorresponds p t 1 s₁ z₁ k := by
  obtain ⟨p', h', hm', hn, hd, hP', ha', hf, -, H, H', O, O', hH, rfl, hk⟩ :=
    study_varied (ams' := ams') (om' := om) h (shifted_maxPeriod hams) (shifted_deltaTime hams dt)
      (fun d => shifted_runLength hams d ns nc nch) (Forall₂ (Forall₂ (Airplane.Moved M3.one t))) (fun O O' => O' = O)
      (fun n d H hH => mapM_related (f := fun am : AirplaneMovement => am.generate n d)
        (f' := fun am : AirplaneMovement => am.generate n d) (R := AirplaneMovement.Shifted t)
        (S := Forall₂ (Airplane.Moved M3.one t)) (fun a a' b hab ha => AirplaneMovement.Shifted.generate hab ha) hams hH)
      (fun n d O hO => ⟨O, hO, rfl⟩)
  refine ⟨p', h', hn, hd, hP', ha', ?_⟩
  have hair : ∀ k < p.numSteps, Forall₂ (Airplane.Moved M3.one t) (p.airplanesAt k) (p'.airplanesAt k) := by
    intro k hkn
    obtain ⟨a1, a2, -, -⟩ := hk k hkn
    refine forall₂_of_getElem? (by rw [← a1.length_eq, ← a2.length_eq, hH.length_eq]) ?_
    intro i A A' hA hA'
    have hi : i < H.length := by rw [a1.length_eq]; exact (List.getElem?_eq_some_iff.mp hA).1
    have hx := List.getElem?_eq_getElem hi
    obtain ⟨l', hl', hll⟩ := forall₂_at hH i _ hx
    obtain ⟨B, hB, e⟩ := forall₂_at a1 i _ hx
    obtain ⟨B', hB', e'⟩ := forall₂_at a2 i _ hl'
    rw [hA, Option.some.injEq] at hB
    rw [hA', Option.some.injEq] at hB'
    subst hB hB'
    obtain ⟨C, hC, hm⟩ := forall₂_at hll k A e
    rw [hC, Option.some.injEq] at e'
    rwa [← e']
  have hop : ∀ k < p.numSteps, p'.operatingPointAt k = p.operatingPointAt k := by
    intro k hkn
    obtain ⟨-, -, a3, a4⟩ := hk k hkn
    rw [a3, Option.some.injEq] at a4
    exact a4.symm
  have hmade := (study_parts h).1
  have hs : SimilarUnsteady p p' M3.one t (fun _ _ => false) 1 id (fun _ => id) :=
    { made := hmade, made' := hm', chordwise := hc, steps := hn.ge, time := hd
      similar := by
        intro k hkn
        exact {
          airplanes := SimilarAirplanes.of_moved one_isRot (hair k hkn)
          made := hmade.regular.made k
          made' := hm'.regular.made k
          nonzero := one_ne_zero
          direction := by simp only [hop k hkn, one_mulVec]
          velocity := by simp only [hop k hkn, one_mulVec, one_smul]
          density := by simp only [hop k hkn, _root_.one_mul] }
      nu := by intro k hkn; rw [hop k hkn]
      shared := by intro k _ a w hw; cases hw }
  intro s s₁ z pres sl sl' hr hrun hz
  refine hs.corresponds hn.le one_ne_zero hf ?_ ?_ ?_ hr hrun hz sl'
  · intro k hkn; rw [hop k hkn]
  · intro k hkn; rw [hop k hkn, _root_.one_mul]
  · intro k hkn a A A' hA hA'
    obtain ⟨B', hB', hm⟩ := forall₂_at (hair k hkn) a A hA
    rw [hA', Option.some.injEq] at hB'
    subst hB'
    have := C64_geometry one_isRot A A' hm
    exact ⟨this.1, this.2.1, this.2.2.1⟩

/-- The hypotheses are met: a heaving plate, in a fluid twice as dense and at another place; it runs with and without
the prescribed wake, and from the second step on there is a wake. -/
example (A P : ℝ) (n : ℕ) (hn : 0 < n) (dt velocity alpha : ℝ) (ha : |alpha| ≤ 90) (hdt : 0 < dt) (hv : 0 < velocity)
    (only pres sl : Bool) (t : V3) :
    ∃ ams ams' om p s s₁, study ams om (some n) none none (some dt) only = .ok p ∧ p.Chordwise ∧ p.numSteps = n ∧
      Forall₂ (AirplaneMovement.Shifted t) ams ams' ∧ Reached p s ∧ s.run pres sl = .ok s₁ ∧
      ∀ k < n, ∀ i < k, (⟨0, 0, i, 0⟩ : WakePlace) ∈ wakePlaces p k := by
  obtain ⟨w, hw, -, h⟩ := heaving_movement_of 1 A P
  obtain ⟨w', hw', hmv, -⟩ := C64_translated_wing _ _ _ _ _ _ _ w hw t
  obtain ⟨a, ha1⟩ : ∃ a, Airplane.create [w] = .ok a := ⟨_, rfl⟩
  obtain ⟨a', ha2⟩ : ∃ a', Airplane.create [w'] (M3.one.mulVec 0 + t) = .ok a' := ⟨_, rfl⟩
  obtain ⟨-, mv, p, h1, h2, hp, -⟩ := h a n hn dt { velocity := velocity, alpha := alpha, beta := 0 } only
  obtain ⟨s, hs⟩ := hp.create hn
  have hr : Reached p s := .fresh hs
  obtain ⟨s₁, hrun⟩ := hp.run hdt.le hv.le (flies_ahead _ velocity alpha ha) hr pres sl
  refine ⟨[{ base := a, wingMovements := [heave w A P] }],
    [{ base := a', wingMovements := [{ heave w A P with base := w' }] }], _, p, s, s₁, bind_ok.mpr ⟨mv, h1, h2⟩,
    hp.chordwise, hp.steps, .cons ⟨?_, .cons ⟨hmv, rfl⟩ .nil, rfl⟩ .nil, hr, hrun, fun k hk i hi => hp.place hk hi⟩
  exact ⟨[w], [w'], 0, 0, none, none, none, ha1, ha2, .cons hmv .nil⟩

end Ptera
