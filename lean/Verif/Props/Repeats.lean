import Verif.Lemmas.Repeats
import Verif.Lemmas.PlateUnsteady
import Verif.Props.Flapping

/-!
# Motions repeat

C81: after a common multiple of the periods the airplanes and the operating point are what they were, and the
averaging window of a study with one period shows each phase of the motion once.
-/

namespace Ptera

open List

/-- C81: two steps of a study between which every oscillation does a whole number of periods have the same airplanes
(all panels, wings, cross sections and reference points) and the same operating point. -/
theorem C81_repeats (ams : List AirplaneMovement) (om : OperatingPointMovement) (ns nc nch : Option ℕ) (dt : Option ℝ)
    (only : Bool) (p : UnsteadyProblem) (h : study ams om ns nc nch dt only = .ok p) (j k : ℕ) (hj : j < p.numSteps)
    (hk : k < p.numSteps)
    (hT : ∀ o ∈ studyOscillations ams om, o.RepeatsAfter (k * p.deltaTime - j * p.deltaTime)) :
    p.airplanesAt k = p.airplanesAt j ∧ p.operatingPointAt k = p.operatingPointAt j := by
  obtain ⟨-, -, -, -, -, -, -, -, H, O, hH, hO, hs⟩ := study_parts h
  obtain ⟨a1, a2⟩ := hs k hk
  obtain ⟨b1, b2⟩ := hs j hj
  constructor
  · have hcol : ∀ l ∈ H, l[k]? = l[j]? := by
      intro l hl
      obtain ⟨am, ham, e⟩ := mapM_mem' hH hl
      refine AirplaneMovement.generate_repeat (fun o ho => hT o ?_) hj hk e
      simp only [studyOscillations, List.mem_cons, List.mem_flatMap]
      exact .inr ⟨am, ham, ho⟩
    have e : ∀ {i : ℕ} {H : List (List Airplane)} {l : List Airplane},
        Forall₂ (fun (history : List Airplane) a => history[i]? = some a) H l → H.filterMap (·[i]?) = l := by
      intro i H l h
      induction h with
      | nil => rfl
      | cons h _ ih => rw [List.filterMap_cons, h, ih]
    rw [← e a1, ← e b1]
    exact column_repeat hcol
  · obtain ⟨vs, h1, hl, ho⟩ := OperatingPointMovement.generate_ok hO
    rw [ho k hk, Option.some.injEq] at a2
    rw [ho j hj, Option.some.injEq] at b2
    rw [← a2, ← b2, Oscillation.values_repeat (hT _ (by simp [studyOscillations])) hj hk h1]

/-- C81: in a study all of whose oscillations repeat after the largest period `P`, a whole number `m` of time steps no
longer than the run, the averaging window is the last `m` steps, and every step of the run has the airplanes and the
operating point of exactly one step of the window with the same phase (a step a multiple of `m` away). So the mean over the
window gives every phase of the motion the same weight. -/
theorem C81_window (ams : List AirplaneMovement) (om : OperatingPointMovement) (ns nc nch : Option ℕ) (dt : Option ℝ)
    (only : Bool) (p : UnsteadyProblem) (h : study ams om ns nc nch dt only = .ok p) (m : ℕ) (hm : 0 < m)
    (hmn : m ≤ p.numSteps) (hdt : 0 < p.deltaTime) (hP : p.maxPeriod = m * p.deltaTime)
    (hT : ∀ o ∈ studyOscillations ams om, o.RepeatsAfter p.maxPeriod) :
    p.firstAveragingStep = (p.numSteps : ℤ) - m ∧
    ∀ k < p.numSteps, ∃! j : ℕ, (p.firstAveragingStep ≤ j ∧ j < p.numSteps) ∧ j ≡ k [MOD m] ∧
      p.airplanesAt j = p.airplanesAt k ∧ p.operatingPointAt j = p.operatingPointAt k := by
  have hfirst : p.firstAveragingStep = (p.numSteps : ℤ) - m := by
    obtain ⟨-, -, e, -⟩ := study_parts h
    have hP0 : p.maxPeriod ≠ 0 := by rw [hP]; positivity
    have hq : p.maxPeriod / p.deltaTime = m := by rw [hP]; field_simp
    have hfl : ⌊(p.numSteps : ℝ) - m⌋ = (p.numSteps : ℤ) - m := by
      rw [show (p.numSteps : ℝ) - m = (((p.numSteps : ℤ) - m : ℤ) : ℝ) by push_cast; ring, Int.floor_intCast]
    rw [e, averagingStart, if_neg hP0, hq, hfl]
    omega
  refine ⟨hfirst, fun k hk => ?_⟩
  have same : ∀ j < p.numSteps, j ≡ k [MOD m] →
      p.airplanesAt j = p.airplanesAt k ∧ p.operatingPointAt j = p.operatingPointAt k := by
    intro j hj hjk
    refine C81_repeats ams om ns nc nch dt only p h k j hk hj (fun o ho => ?_)
    obtain ⟨q, hq⟩ := (Nat.modEq_iff_dvd.mp hjk.symm)
    have e : (j : ℝ) * p.deltaTime - k * p.deltaTime = q * p.maxPeriod := by
      have : ((j : ℤ) : ℝ) - (k : ℤ) = m * q := by exact_mod_cast hq
      push_cast at this
      rw [hP, ← sub_mul, this]; ring
    rw [e]
    exact (hT o ho).mul q
  obtain ⟨d, hd⟩ : ∃ d, p.numSteps = d + m := ⟨p.numSteps - m, by omega⟩
  have hlt : (k + (m - 1) * d) % m < m := Nat.mod_lt _ hm
  have hmod : d + (k + (m - 1) * d) % m ≡ k [MOD m] := by
    have h1 : d + (k + (m - 1) * d) % m ≡ d + (k + (m - 1) * d) [MOD m] :=
      Nat.ModEq.add_left d (Nat.mod_modEq _ _)
    have h2 : d + (k + (m - 1) * d) = k + m * d := by
      obtain ⟨e, rfl⟩ : ∃ e, m = e + 1 := ⟨m - 1, by omega⟩
      rw [Nat.add_sub_cancel]; ring
    rw [h2] at h1
    exact h1.trans (by simp [Nat.ModEq])
  refine ⟨d + (k + (m - 1) * d) % m, ⟨⟨by omega, by omega⟩, hmod, same _ (by omega) hmod⟩, ?_⟩
  rintro j ⟨⟨h1, h2⟩, h3, -⟩
  have h4 : j ≡ d + (k + (m - 1) * d) % m [MOD m] := h3.trans hmod.symm
  have h5 := Nat.modEq_iff_dvd.mp h4
  have h6 := Int.eq_zero_of_abs_lt_dvd h5 (by rw [abs_lt]; omega)
  omega

/-- Non-vacuity: a plate that heaves with a period of four time steps, in a run of ten. -/
example : ∃ (am : AirplaneMovement) (om : OperatingPointMovement) (p : UnsteadyProblem),
    study [am] om (some 10) none none (some 1) false = .ok p ∧ p.numSteps = 10 ∧ p.deltaTime = 1 ∧ p.maxPeriod = 4 ∧
    (∀ o ∈ studyOscillations [am] om, o.RepeatsAfter p.maxPeriod) ∧
    panelAt (p.airplanesAt 1) ⟨0, 0, 0, 0⟩ ≠ panelAt (p.airplanesAt 0) ⟨0, 0, 0, 0⟩ := by
  obtain ⟨w, -, -, h⟩ := heaving_movement_of 1 1 4
  obtain ⟨hP, mv, p, h1, h2, hp, -⟩ := h
    { wings := [], xyzRef := 0, weight := 0, sRef := 0, cRef := 0, bRef := 0, numPanels := 0 }
    10 (by norm_num) 1 { density := 1, velocity := 1, alpha := 0, beta := 0 } false
  refine ⟨_, _, p, bind_ok.mpr ⟨mv, h1, h2⟩, hp.steps, hp.dt, by rw [hp.period]; norm_num, ?_, ?_⟩
  · intro o ho
    have hT : p.maxPeriod = ((1 : ℤ) : ℝ) * 4 := by rw [hp.period]; norm_num
    simp only [studyOscillations, AirplaneMovement.oscillations, WingMovement.oscillations,
      WingCrossSectionMovement.oscillations, heave, plateMovement, List.mem_cons, List.mem_append, List.mem_flatMap,
      List.mem_map, List.not_mem_nil, or_false, List.flatMap_cons, List.flatMap_nil, List.append_nil] at ho
    rcases ho with rfl | (rfl | rfl | rfl) | (rfl | rfl | rfl) | ⟨_, ⟨s, _, rfl⟩, rfl | rfl | rfl⟩
    all_goals first
      | exact .inl rfl
      | exact .inr (.inr ⟨⟨1, hT⟩, fun f hs => by simp at hs⟩)
  · rw [(hp.refs (by norm_num)).2, (hp.refs (by norm_num)).2]
    have hz : ∀ k < 10, (oscillatingSinspace 1 4 0 10 1).getD k 0 = Real.sin (Real.pi / 2 * k) := by
      intro k hk
      rw [List.getD_eq_getElem?_getD, (C26_sine 1 4 0 10 1 (by norm_num)).2 k hk]
      simp only [sineWave, Option.getD_some]
      ring_nf
    rw [hz 0 (by norm_num), hz 1 (by norm_num)]
    intro h
    have := congrArg (fun q : Option Panel => q.map (·.frontRight.z)) h
    simp [squareAt] at this

end Ptera
