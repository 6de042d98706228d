import Verif.Lemmas.FarApartLoads
import Verif.Props.FarApart
import Verif.Props.NearbyUnsteady
import Verif.Props.UnsteadyVariations

/-!
# C102: airplanes far apart do not influence each other during an unsteady run
-/

namespace Ptera

open Filter Topology List UnsteadySolver

/-- Problems in which the airplanes are at least `n + c` apart. -/
theorem farApproach_of_apart {m N : ℕ} {P : ℕ → UnsteadyProblem} {d : ℕ → ℕ → V3} {q : ℕ → UnsteadyProblem}
    (hP : ∀ i < m, (P i).Made) (hq : ∀ n, (q n).Made) (hdt : ∀ i < m, (P i).deltaTime ≠ 0)
    (hN : ∀ n, (q n).numSteps = N) (ha : ∀ n, Assembled m P (d n) (q n)) (c : ℕ)
    (hap : ∀ n : ℕ, Apart ((n + c : ℕ) : ℝ) (d n) m) : FarApproach atTop m N P d q where
  made := hP
  made' := hq
  nonzero := hdt
  numSteps := hN
  assembled := ha
  far := far_of_apart fun n i j hi hj hij => le_trans (by push_cast; linarith [Nat.cast_nonneg (α := ℝ) c]) (hap n i j hi hj hij)

/-- C102: let every airplane be solvable alone. Then, for every tolerance, the airplanes can be solved together as soon
as they are moved far enough apart, in whatever directions, and every step shows of every airplane and its wake what the
airplane alone shows, up to the tolerance: the strengths, the places and strengths of the wake rings, and, where results
are computed, the forces, moments and coefficients. No point at which the velocity is computed for an airplane alone may
be exactly where the solver begins to leave out a filament. -/
theorem C102_far_apart {m : ℕ} (hm : 0 < m) {P : ℕ → UnsteadyProblem} {s s₁ : ℕ → UnsteadySolver} {pres : Bool}
    {sl : ℕ → Bool} (hP : ∀ i < m, (P i).Made) (hdt : ∀ i < m, (P i).deltaTime ≠ 0)
    (hs : ∀ i < m, Reached (P i) (s i)) (h₁ : ∀ i < m, (s i).run pres (sl i) = .ok (s₁ i))
    (hcut : ∀ i < m, ∀ k < (P i).numSteps, ∀ x, EvaluatedAt (P i) pres (s₁ i) k x →
      ∀ f ∈ (s₁ i).filaments k, f.OffBorder x) (ε : ℝ) (hε : 0 < ε) :
    ∃ D : ℝ, ∀ d (q : UnsteadyProblem), q.Made → Assembled m P d q → Apart D d m → ∀ z, Reached q z → ∀ sl', ∃ z₁,
      z.run pres sl' = .ok z₁ ∧ ∀ i < m, ∀ k < q.numSteps, AirplaneStepNear (P i) q i (d i) ε (s₁ i) z₁ k := by
  by_contra hcon
  push Not at hcon
  choose d q hq ha hap z hz sl' hbad using fun n : ℕ => hcon n
  have hN : ∀ n, (q n).numSteps = (P 0).numSteps := fun n => ((ha n).numSteps 0 hm).symm
  have h := farApproach_of_apart hP hq hdt hN ha 0 hap
  have : Inhabited UnsteadySolver := ⟨z 0⟩
  obtain ⟨st, hst⟩ := exists_family fun i hi => (hs i hi).trace (hP i hi) (h₁ i hi)
  obtain ⟨sm, ht⟩ := exists_family hst
  obtain ⟨c, hc⟩ := eventually_atTop.mp (h.runs_exist ht hcut hz pres sl')
  choose z₁ hz₁ using fun n : ℕ => hc (n + c) (by omega)
  have h' := farApproach_of_apart (d := fun n => d (n + c)) (q := fun n => q (n + c)) hP (fun n => hq _) hdt
    (fun n => hN _) (fun n => ha _) c (fun n => hap (n + c))
  obtain ⟨n, hfin⟩ := (h'.near hs (fun n => hz (n + c)) h₁ hz₁ hcut hε).exists
  obtain ⟨i, hi, k, hk, hno⟩ := hbad (n + c) (z₁ n) (hz₁ n)
  exact hno (hfin i hi k (by rw [← hN (n + c)]; exact hk))

/-- C102: the airplanes moved far enough apart can be solved together with either kind of wake. -/
theorem C102_solvable {m : ℕ} (hm : 0 < m) {P : ℕ → UnsteadyProblem} {s s₁ : ℕ → UnsteadySolver} {pres : Bool}
    {sl : ℕ → Bool} (hP : ∀ i < m, (P i).Made) (hdt : ∀ i < m, (P i).deltaTime ≠ 0)
    (hs : ∀ i < m, Reached (P i) (s i)) (h₁ : ∀ i < m, (s i).run pres (sl i) = .ok (s₁ i))
    (hcut : ∀ i < m, ∀ k < (P i).numSteps, ∀ x, EvaluatedAt (P i) pres (s₁ i) k x →
      ∀ f ∈ (s₁ i).filaments k, f.OffBorder x) :
    ∃ D : ℝ, ∀ d (q : UnsteadyProblem), q.Made → Assembled m P d q → Apart D d m → ∀ z, Reached q z → ∀ pres' sl',
      ∃ z₁, z.run pres' sl' = .ok z₁ := by
  by_contra hcon
  push Not at hcon
  choose d q hq ha hap z hz pres' sl' hbad using fun n : ℕ => hcon n
  have hN : ∀ n, (q n).numSteps = (P 0).numSteps := fun n => ((ha n).numSteps 0 hm).symm
  have h := farApproach_of_apart hP hq hdt hN ha 0 hap
  have : Inhabited UnsteadySolver := ⟨z 0⟩
  obtain ⟨st, hst⟩ := exists_family fun i hi => (hs i hi).trace (hP i hi) (h₁ i hi)
  obtain ⟨sm, ht⟩ := exists_family hst
  obtain ⟨n, ⟨z1, h1⟩, ⟨z2, h2⟩⟩ := ((h.runs_exist ht hcut hz true sl').and
    (h.runs_exist ht hcut hz false sl')).exists
  cases hb : pres' n with
  | true => rw [← hb] at h1; exact hbad n _ h1
  | false => rw [← hb] at h2; exact hbad n _ h2

/-- C102: at every point beside an airplane, the velocity reported at every step is near that beside the airplane alone,
unless the point is exactly where the solver begins to leave out a filament. -/
theorem C102_flow_field {m : ℕ} {P : ℕ → UnsteadyProblem} {s s₁ : ℕ → UnsteadySolver} {pres : Bool}
    {sl : ℕ → Bool} (hP : ∀ i < m, (P i).Made) (hdt : ∀ i < m, (P i).deltaTime ≠ 0)
    (hs : ∀ i < m, Reached (P i) (s i)) (h₁ : ∀ i < m, (s i).run pres (sl i) = .ok (s₁ i))
    (hcut : ∀ i < m, ∀ k < (P i).numSteps, ∀ x, EvaluatedAt (P i) pres (s₁ i) k x →
      ∀ f ∈ (s₁ i).filaments k, f.OffBorder x) {i : ℕ} (hi : i < m) {k : ℕ} (hk : k < (P i).numSteps) (x : V3)
    (hx : ∀ f ∈ (s₁ i).filaments k, f.OffBorder x) (ε : ℝ) (hε : 0 < ε) :
    ∃ D : ℝ, ∀ d (q : UnsteadyProblem), q.Made → Assembled m P d q → Apart D d m → ∀ z z₁ sl', Reached q z →
      z.run pres sl' = .ok z₁ → (flow z₁ k (x + d i) - flow (s₁ i) k x).norm < ε := by
  by_contra hcon
  push Not at hcon
  choose d q hq ha hap z z₁ sl' hz hz₁ hbad using fun n : ℕ => hcon n
  have hN : ∀ n, (q n).numSteps = (P i).numSteps := fun n => ((ha n).numSteps i hi).symm
  have h := farApproach_of_apart hP hq hdt hN ha 0 hap
  have : Inhabited UnsteadySolver := ⟨z 0⟩
  obtain ⟨st, hst⟩ := exists_family fun i hi => (hs i hi).trace (hP i hi) (h₁ i hi)
  obtain ⟨sm, ht⟩ := exists_family hst
  choose zt zm ht' using fun n => (hz n).trace (hq n) (hz₁ n)
  obtain ⟨n, hn'⟩ := (((h.steps ht ht' hcut k hk i hi).2.2 (fun _ => x) x hx (V3.Tends.const x)).close hε).exists
  exact absurd hn' (not_lt.mpr (hbad n))

/-- Studies of the airplanes alone, put together. -/
theorem study_assembled {ams ams' : List AirplaneMovement} (hne : ams ≠ []) {om : OperatingPointMovement} {n : ℕ} {dt : ℝ}
    {only : Bool} {P : ℕ → UnsteadyProblem}
    (hP : ∀ i am, ams[i]? = some am → study [am] om (some n) none none (some dt) only = .ok (P i)) {d : ℕ → V3}
    (hlen : ams'.length = ams.length)
    (hsh : ∀ i am am', ams[i]? = some am → ams'[i]? = some am' → AirplaneMovement.Shifted (d i) am am') :
    ∃ q, study ams' om (some n) none none (some dt) only = .ok q ∧ q.Made ∧ q.numSteps = n ∧
      Assembled ams.length P d q := by
  have hparts : ∀ i am, ams[i]? = some am → ∃ B O, am.generate n dt = .ok B ∧ om.generate n dt = .ok O ∧
      (∃ T, am.maxPeriod = .ok T) ∧ (P i).numSteps = n ∧ (P i).deltaTime = dt ∧
      ∀ k < n, (∃ a, B[k]? = some a ∧ (P i).airplanesAt k = [a]) ∧ O[k]? = some ((P i).operatingPointAt k) := by
    intro i am hi
    obtain ⟨-, -, -, -, a4, -, a6, a7, H, O, hH, hO, hk⟩ := study_parts (hP i am hi)
    simp only [chooseDeltaTime, Except.ok.injEq] at a6
    simp only [runLength, Except.ok.injEq] at a7
    rw [← a6, ← a7] at hH hO
    obtain ⟨B, r, hB, hr, rfl⟩ := mapM_cons_ok.mp hH
    rw [mapM_nil_ok] at hr
    subst hr
    refine ⟨B, O, hB, hO, ?_, a7.symm, a6.symm, ?_⟩
    · unfold movementMaxPeriod at a4
      obtain ⟨ps, h1, -⟩ := bind_ok.mp a4
      obtain ⟨T, r, hT, -⟩ := mapM_cons_ok.mp h1
      exact ⟨T, hT⟩
    · intro k hkn
      obtain ⟨h1, h2⟩ := hk k (by rw [← a7]; exact hkn)
      refine ⟨?_, h2⟩
      cases hl : (P i).airplanesAt k with
      | nil => rw [hl] at h1; cases h1
      | cons a l =>
        rw [hl] at h1
        cases h1 with
        | cons h3 h4 => cases h4; exact ⟨a, h3, rfl⟩
  have hback : ∀ i am', ams'[i]? = some am' → ∃ am, ams[i]? = some am ∧ AirplaneMovement.Shifted (d i) am am' := by
    intro i am' hi
    have : i < ams.length := by rw [← hlen]; exact (List.getElem?_eq_some_iff.mp hi).1
    exact ⟨_, List.getElem?_eq_getElem this, hsh i _ am' (List.getElem?_eq_getElem this) hi⟩
  -- the joint movement is accepted
  obtain ⟨H', hH'⟩ : ∃ H', ams'.mapM (fun am => am.generate n dt) = .ok H' := by
    apply mapM_exists
    intro am' ham'
    obtain ⟨i, hi⟩ := List.mem_iff_getElem?.mp ham'
    obtain ⟨am, hi', hs⟩ := hback i am' hi
    obtain ⟨B, O, hB, -⟩ := hparts i am hi'
    obtain ⟨B', hB', -⟩ := hs.generate hB
    exact ⟨B', hB'⟩
  obtain ⟨O, hO⟩ : ∃ O, om.generate n dt = .ok O := by
    obtain ⟨am, l, rfl⟩ := List.exists_cons_of_ne_nil hne
    obtain ⟨B, O, -, hO, -⟩ := hparts 0 am rfl
    exact ⟨O, hO⟩
  obtain ⟨T, hT⟩ : ∃ T, movementMaxPeriod ams' om = .ok T := by
    obtain ⟨ps, hps⟩ : ∃ ps, ams'.mapM (·.maxPeriod) = .ok ps := by
      apply mapM_exists
      intro am' ham'
      obtain ⟨i, hi⟩ := List.mem_iff_getElem?.mp ham'
      obtain ⟨am, hi', hs⟩ := hback i am' hi
      obtain ⟨-, -, -, -, hT, -⟩ := hparts i am hi'
      rw [hs.maxPeriod]
      exact hT
    have hne' : ps ≠ [] := by
      have h1 := mapM_length hps
      have h2 := List.length_pos_of_ne_nil hne
      exact List.ne_nil_of_length_pos (by omega)
    obtain ⟨M, hM⟩ := pyMax_ok hne'
    refine ⟨max M om.maxPeriod, ?_⟩
    unfold movementMaxPeriod
    rw [hps]
    simp only [Bind.bind, Except.bind, hM]
    rfl
  have hmv : Movement.create ams' om (some n) none none (some dt) = .ok
      { airplaneMovements := ams', operatingPointMovement := om, numSteps := n, deltaTime := dt
        airplanes := H', operatingPoints := O } := by
    unfold Movement.create
    have : checkRunLength (movementMaxPeriod ams' om) (some n) none none = .ok () := by
      simp [checkRunLength, pure, Except.pure]
    rw [this]
    simp only [Bind.bind, Except.bind, chooseDeltaTime, runLength, hH', hO]
    rfl
  obtain ⟨q, e, e1, e2, e3, -⟩ := C31_steady_problems ams' om (some n) none none (some dt) _ hmv T hT only
  have hst : study ams' om (some n) none none (some dt) only = .ok q := bind_ok.mpr ⟨_, hmv, e⟩
  simp only at e1 e2
  obtain ⟨b0, -, -, -, -, -, -, -, H2, O2, hH2, hO2, hk2⟩ := study_parts hst
  rw [e1, e2] at hH2 hO2
  rw [hH', Except.ok.injEq] at hH2
  rw [hO, Except.ok.injEq] at hO2
  subst hH2 hO2
  have hat : ∀ i < ams.length, ∃ am, ams[i]? = some am := fun i hi => ⟨_, List.getElem?_eq_getElem hi⟩
  refine ⟨q, hst, b0, e1, ?_, ?_, ?_, ?_, ?_⟩
  · intro i hi
    obtain ⟨am, ham⟩ := hat i hi
    obtain ⟨-, -, -, -, -, h1, -⟩ := hparts i am ham
    rw [h1, e1]
  · intro i hi
    obtain ⟨am, ham⟩ := hat i hi
    obtain ⟨-, -, -, -, -, -, h1, -⟩ := hparts i am ham
    rw [h1, e2]
  · intro i hi k hk
    obtain ⟨am, ham⟩ := hat i hi
    obtain ⟨B, O', -, hO', -, -, -, h1⟩ := hparts i am ham
    rw [hO, Except.ok.injEq] at hO'
    subst hO'
    have h2 := (h1 k (by rw [← e1]; exact hk)).2
    have h3 := (hk2 k hk).2
    rw [h2, Option.some.injEq] at h3
    exact h3
  · intro k hk
    rw [← (hk2 k hk).1.length_eq, mapM_length hH', hlen]
  · intro i hi k hk
    obtain ⟨am, ham⟩ := hat i hi
    have hi' : i < ams'.length := by rw [hlen]; exact hi
    have ham' := List.getElem?_eq_getElem hi'
    obtain ⟨B, O₀, hB, -, -, -, -, h1⟩ := hparts i am ham
    obtain ⟨⟨a, ha1, ha2⟩, -⟩ := h1 k (by rw [← e1]; exact hk)
    obtain ⟨B', hB', hBB⟩ := (hsh i am _ ham ham').generate hB
    obtain ⟨C, hC1, hC2⟩ := mapM_getElem? hH' i _ ham'
    rw [hB', Except.ok.injEq] at hC2
    subst hC2
    obtain ⟨a', ha', hm⟩ := forall₂_at hBB k a ha1
    obtain ⟨a'', ha'', h3⟩ := forall₂_at (hk2 k hk).1 i _ hC1
    rw [ha', Option.some.injEq] at h3
    subst h3
    exact ⟨a, a', ha2, ha'', hm⟩

/-- C102: let every one of the movements be accepted and solvable alone, with a given number of steps and time step.
Then the movements of the same airplanes, built at places moved by `d i`, are accepted together, and, for every
tolerance, as soon as the places are far enough apart, the run of all together succeeds and shows of every airplane, at
every step, what its run alone shows, up to the tolerance. -/
theorem C102_studies (ams : List AirplaneMovement) (hne : ams ≠ []) (om : OperatingPointMovement) (n : ℕ) (dt : ℝ)
    (hdt : dt ≠ 0) (only pres : Bool) (P : ℕ → UnsteadyProblem) (s s₁ : ℕ → UnsteadySolver) (sl : ℕ → Bool)
    (hP : ∀ i am, ams[i]? = some am → study [am] om (some n) none none (some dt) only = .ok (P i))
    (hs : ∀ i < ams.length, Reached (P i) (s i)) (h₁ : ∀ i < ams.length, (s i).run pres (sl i) = .ok (s₁ i))
    (hcut : ∀ i < ams.length, ∀ k < n, ∀ x, EvaluatedAt (P i) pres (s₁ i) k x →
      ∀ f ∈ (s₁ i).filaments k, f.OffBorder x) (ε : ℝ) (hε : 0 < ε) :
    ∃ D : ℝ, ∀ d ams', ams'.length = ams.length →
      (∀ i am am', ams[i]? = some am → ams'[i]? = some am' → AirplaneMovement.Shifted (d i) am am') →
      ∃ q, study ams' om (some n) none none (some dt) only = .ok q ∧ q.numSteps = n ∧
        (Apart D d ams.length → ∀ z, Reached q z → ∀ sl', ∃ z₁, z.run pres sl' = .ok z₁ ∧
          ∀ i < ams.length, ∀ k < n, AirplaneStepNear (P i) q i (d i) ε (s₁ i) z₁ k) := by
  have hpart : ∀ i < ams.length, (P i).Made ∧ (P i).deltaTime = dt ∧ (P i).numSteps = n := by
    intro i hi
    obtain ⟨h1, -, -, -, -, -, h2, h3, -⟩ := study_parts (hP i _ (List.getElem?_eq_getElem hi))
    simp only [chooseDeltaTime, Except.ok.injEq] at h2
    simp only [runLength, Except.ok.injEq] at h3
    exact ⟨h1, h2.symm, h3.symm⟩
  obtain ⟨D, hD⟩ := C102_far_apart (List.length_pos_of_ne_nil hne) (fun i hi => (hpart i hi).1)
    (fun i hi => by rw [(hpart i hi).2.1]; exact hdt) hs h₁
    (fun i hi k hk => hcut i hi k (by rw [← (hpart i hi).2.2]; exact hk)) ε hε
  refine ⟨D, ?_⟩
  intro d ams' hlen hsh
  obtain ⟨q, h1, h2, h3, h4⟩ := study_assembled hne hP hlen hsh
  refine ⟨q, h1, h3, ?_⟩
  intro hap z hz sl'
  obtain ⟨z₁, e1, e2⟩ := hD d q h2 h4 hap z hz sl'
  exact ⟨z₁, e1, fun i hi k hk => e2 i hi k (by rw [h3]; exact hk)⟩

/-! ## Results at the end of a run -/

/-- A load quantity of an airplane far from the others. -/
theorem AirplaneStepNear.quantity {p p' : UnsteadyProblem} {i : ℕ} {t : V3} {ε : ℝ} {s s' : UnsteadySolver} {k : ℕ}
    (h : AirplaneStepNear p p' i t ε s s' k) (hk : p.firstResultsStep ≤ k) (hk' : p'.firstResultsStep ≤ k) :
    ∃ L L' : AirplaneLoads, (s.loads k)[0]? = some L ∧ (s'.loads k)[i]? = some L' ∧
      ∀ Q ∈ loadQuantities, (Q.2 L' - Q.2 L).norm < ε := by
  obtain ⟨L, L', h1, h2, h3, h4, h5, h6⟩ := h.totals hk hk'
  refine ⟨L, L', h1, h2, ?_⟩
  intro Q hQ
  simp only [loadQuantities, List.mem_cons, List.not_mem_nil, or_false] at hQ
  rcases hQ with rfl | rfl | rfl | rfl
  · exact h3
  · exact h5
  · exact h4
  · exact h6

/-- Means and root-mean-squares over the same window of near vectors are near. -/
theorem averages_near {N first : ℕ} (hlt : first < N) {v v' : ℕ → V3} {m r m' r' : V3} {ε : ℝ} (hε : 0 < ε)
    (ha : ∀ c ∈ [V3.x, V3.y, V3.z], ((N - first : ℕ) : ℝ) * c m = ∑ k ∈ Finset.Ico first N, c (v k) ∧
      0 ≤ c r ∧ ((N - first : ℕ) : ℝ) * c r ^ 2 = ∑ k ∈ Finset.Ico first N, c (v k) ^ 2)
    (hb : ∀ c ∈ [V3.x, V3.y, V3.z], ((N - first : ℕ) : ℝ) * c m' = ∑ k ∈ Finset.Ico first N, c (v' k) ∧
      0 ≤ c r' ∧ ((N - first : ℕ) : ℝ) * c r' ^ 2 = ∑ k ∈ Finset.Ico first N, c (v' k) ^ 2)
    (hstep : ∀ k ∈ Finset.Ico first N, (v' k - v k).norm < ε / 4) : (m' - m).norm < ε ∧ (r' - r).norm < ε := by
  have hcard : ((Finset.Ico first N).card : ℝ) = ((N - first : ℕ) : ℝ) := by rw [Nat.card_Ico]
  have hN : (0 : ℝ) < ((N - first : ℕ) : ℝ) := by rw [Nat.cast_pos]; omega
  have hpart : ∀ c ∈ [V3.x, V3.y, V3.z], ∀ k ∈ Finset.Ico first N, |c (v' k) - c (v k)| ≤ ε / 4 := by
    intro c hc k hk
    have := (hstep k hk).le
    simp only [List.mem_cons, List.not_mem_nil, or_false] at hc
    rcases hc with rfl | rfl | rfl
    · simpa using (V3.abs_x_le _).trans this
    · simpa using (V3.abs_y_le _).trans this
    · simpa using (V3.abs_z_le _).trans this
  have hmean : ∀ c ∈ [V3.x, V3.y, V3.z], |c m' - c m| < ε / 2 := by
    intro c hc
    have e1 := (ha c hc).1
    have e2 := (hb c hc).1
    have e3 : ((N - first : ℕ) : ℝ) * (c m' - c m) = ∑ k ∈ Finset.Ico first N, (c (v' k) - c (v k)) := by
      rw [Finset.sum_sub_distrib, ← e1, ← e2]; ring
    have e4 : ((N - first : ℕ) : ℝ) * |c m' - c m| ≤ ((N - first : ℕ) : ℝ) * (ε / 4) := by
      rw [← abs_of_pos hN, ← abs_mul, abs_of_pos hN, e3]
      refine (Finset.abs_sum_le_sum_abs _ _).trans ((Finset.sum_le_sum (hpart c hc)).trans ?_)
      rw [Finset.sum_const, nsmul_eq_mul, hcard]
    have := le_of_mul_le_mul_left e4 hN
    linarith
  have hrms : ∀ c ∈ [V3.x, V3.y, V3.z], |c r' - c r| < ε / 2 := by
    intro c hc
    obtain ⟨-, e1, e2⟩ := ha c hc
    obtain ⟨-, e3, e4⟩ := hb c hc
    have h1 := rms_near (e := ε / 4) hN hcard e1 e3 e2 e4 (by linarith) (hpart c hc)
    have h2 := rms_near (e := ε / 4) hN hcard e3 e1 e4 e2 (by linarith) (fun k hk => by rw [abs_sub_comm]; exact hpart c hc k hk)
    rw [abs_lt]
    constructor <;> linarith
  constructor
  · have := V3.norm_lt_of_parts (v := m' - m) (e := ε / 2) (by simpa using hmean V3.x (by simp))
      (by simpa using hmean V3.y (by simp)) (by simpa using hmean V3.z (by simp))
    linarith
  · have := V3.norm_lt_of_parts (v := r' - r) (e := ε / 2) (by simpa using hrms V3.x (by simp))
      (by simpa using hrms V3.y (by simp)) (by simpa using hrms V3.z (by simp))
    linarith

/-- The first airplane of a problem with one airplane, and airplane `i` of the airplanes together. -/
theorem Assembled.first {m : ℕ} {P : ℕ → UnsteadyProblem} {d : ℕ → V3} {q : UnsteadyProblem} (h : Assembled m P d q)
    (hpos : 0 < q.numSteps) {i : ℕ} (hi : i < m) : 0 < ((P i).airplanesAt 0).length ∧ i < (q.airplanesAt 0).length := by
  obtain ⟨a, a', h1, -, -⟩ := h.airplanes i hi 0 hpos
  rw [h1, h.count 0 hpos]
  exact ⟨by simp, hi⟩

/-- C102: of airplanes that do not move, the final forces, moments and coefficients are near those of the airplanes
alone. -/
theorem C102_final {m : ℕ} (hm : 0 < m) {P : ℕ → UnsteadyProblem} {s s₁ : ℕ → UnsteadySolver} {pres : Bool}
    {sl : ℕ → Bool} (hP : ∀ i < m, (P i).Made) (hdt : ∀ i < m, 0 < (P i).deltaTime)
    (hs : ∀ i < m, Reached (P i) (s i)) (h₁ : ∀ i < m, (s i).run pres (sl i) = .ok (s₁ i))
    (hcut : ∀ i < m, ∀ k < (P i).numSteps, ∀ x, EvaluatedAt (P i) pres (s₁ i) k x →
      ∀ f ∈ (s₁ i).filaments k, f.OffBorder x) (hstatic : ∀ i < m, (P i).maxPeriod = 0) (ε : ℝ) (hε : 0 < ε) :
    ∃ D : ℝ, ∀ d (q : UnsteadyProblem), q.Made → q.maxPeriod = 0 → Assembled m P d q → Apart D d m → ∀ z, Reached q z →
      ∀ sl', ∃ z₁, z.run pres sl' = .ok z₁ ∧ ∀ Q ∈ loadQuantities, ∀ i < m, ∃ v v',
        addedResult (Q.1 (s i).final) (Q.1 (s₁ i).final) 0 = some v ∧
        addedResult (Q.1 z.final) (Q.1 z₁.final) i = some v' ∧ (v' - v).norm < ε := by
  obtain ⟨D, h⟩ := C102_far_apart hm hP (fun i hi => (hdt i hi).ne') hs h₁ hcut ε hε
  refine ⟨D, ?_⟩
  intro d q hqm hqs ha hap z hz sl'
  obtain ⟨z₁, hz₁, hall⟩ := h d q hqm ha hap z hz sl'
  refine ⟨z₁, hz₁, ?_⟩
  have hpos := hz.steps hqm
  intro Q hQ i hi
  have hdt' : 0 < q.deltaTime := by rw [← ha.deltaTime i hi]; exact hdt i hi
  have hn := ha.numSteps i hi
  obtain ⟨-, a2, -⟩ := C47_static (hP i hi) (hs i hi) (h₁ i hi) (hdt i hi) (hstatic i hi)
  obtain ⟨-, b2, -⟩ := C47_static hqm hz hz₁ hdt' hqs
  obtain ⟨w1, w2, w3, -⟩ := (hP i hi).window (by omega) (hdt i hi) (hstatic i hi).ge
  obtain ⟨u1, u2, u3, -⟩ := hqm.window hpos hdt' hqs.ge
  rw [hn] at a2
  obtain ⟨L, L', l1, l2, l3⟩ := (hall i hi (q.numSteps - 1) (by omega)).quantity (by omega) (by omega)
  refine ⟨Q.2 L, Q.2 L', ?_, ?_, l3 Q hQ⟩
  · rw [a2 Q hQ, addedResult_append, List.getElem?_map, l1]; rfl
  · rw [b2 Q hQ, addedResult_append, List.getElem?_map, l2]; rfl

/-- C102: the means and root-mean-squares over the last cycle of an airplane that is averaged over the same steps alone
and together with the others are near. -/
theorem C102_averages {m : ℕ} (hm : 0 < m) {P : ℕ → UnsteadyProblem} {s s₁ : ℕ → UnsteadySolver} {pres : Bool}
    {sl : ℕ → Bool} (hP : ∀ i < m, (P i).Made) (hdt : ∀ i < m, 0 < (P i).deltaTime)
    (hs : ∀ i < m, Reached (P i) (s i)) (h₁ : ∀ i < m, (s i).run pres (sl i) = .ok (s₁ i))
    (hcut : ∀ i < m, ∀ k < (P i).numSteps, ∀ x, EvaluatedAt (P i) pres (s₁ i) k x →
      ∀ f ∈ (s₁ i).filaments k, f.OffBorder x) (ε : ℝ) (hε : 0 < ε) :
    ∃ D : ℝ, ∀ d (q : UnsteadyProblem), q.Made → 0 < q.maxPeriod → Assembled m P d q → Apart D d m → ∀ z, Reached q z →
      ∀ sl', ∃ z₁, z.run pres sl' = .ok z₁ ∧ ∀ Q ∈ loadQuantities, ∀ i < m, 0 < (P i).maxPeriod →
        (P i).firstAveragingStep = q.firstAveragingStep →
        (∃ v v', addedResult (Q.1 (s i).finalMean) (Q.1 (s₁ i).finalMean) 0 = some v ∧
          addedResult (Q.1 z.finalMean) (Q.1 z₁.finalMean) i = some v' ∧ (v' - v).norm < ε) ∧
        (∃ v v', addedResult (Q.1 (s i).finalRms) (Q.1 (s₁ i).finalRms) 0 = some v ∧
          addedResult (Q.1 z.finalRms) (Q.1 z₁.finalRms) i = some v' ∧ (v' - v).norm < ε) := by
  obtain ⟨D, h⟩ := C102_far_apart hm hP (fun i hi => (hdt i hi).ne') hs h₁ hcut (ε / 4) (by linarith)
  refine ⟨D, ?_⟩
  intro d q hqm hqp ha hap z hz sl'
  obtain ⟨z₁, hz₁, hall⟩ := h d q hqm ha hap z hz sl'
  refine ⟨z₁, hz₁, ?_⟩
  have hpos := hz.steps hqm
  intro Q hQ i hi hper hwin
  have hdt' : 0 < q.deltaTime := by rw [← ha.deltaTime i hi]; exact hdt i hi
  have hn := ha.numSteps i hi
  obtain ⟨w1, w2, w3, -⟩ := (hP i hi).window (by omega) (hdt i hi) hper.le
  obtain ⟨u1, u2, u3, -⟩ := hqm.window hpos hdt' hqp.le
  obtain ⟨a1, -, a2⟩ := C47_periodic (hP i hi) (hs i hi) (h₁ i hi) (hdt i hi) hper
  obtain ⟨b1, -, b2⟩ := C47_periodic hqm hz hz₁ hdt' hqp
  rw [hwin, hn] at a1 a2
  obtain ⟨i0, i1⟩ := ha.first hpos hi
  obtain ⟨r, r₂, L, a4, a5, a6, a7⟩ := (a2 Q hQ).2.2 0 i0
  obtain ⟨r', r₂', L', b4, b5, b6, b7⟩ := (b2 Q hQ).2.2 i i1
  obtain ⟨g1, g2⟩ := averages_near b1 (v := fun k => Q.2 (L k)) (v' := fun k => Q.2 (L' k)) (m := r) (r := r₂) (m' := r')
    (r' := r₂') hε (fun c hc => ⟨(a7 c hc).1, (a7 c hc).2.1, (a7 c hc).2.2.1⟩)
    (fun c hc => ⟨(b7 c hc).1, (b7 c hc).2.1, (b7 c hc).2.2.1⟩) (by
      intro k hk
      obtain ⟨k1, k2⟩ := Finset.mem_Ico.mp hk
      obtain ⟨M, M', l1, l2, l3⟩ := (hall i hi k k2).quantity (by omega) (by omega)
      rw [a6 k k1 k2, Option.some.injEq] at l1
      rw [b6 k k1 k2, Option.some.injEq] at l2
      subst l1 l2
      exact l3 Q hQ)
  exact ⟨⟨r, r', a4, b4, g1⟩, ⟨r₂, r₂', a5, b5, g2⟩⟩

/-- The hypotheses are met: two plates in a flow from below, one of them moved by any `t` that is long enough, with a
prescribed wake, which grows from step to step. -/
example (n : ℕ) (hn : 0 < n) (only : Bool) (ε : ℝ) (hε : 0 < ε) :
    ∃ (am : AirplaneMovement) (om : OperatingPointMovement) (p : UnsteadyProblem) (s s₁ : UnsteadySolver),
      study [am] om (some n) none none (some 1) only = .ok p ∧ UnsteadySolver.create p = .ok s ∧
      s.run true false = .ok s₁ ∧ (∀ k < n, ∀ i < k, (⟨0, 0, i, 0⟩ : WakePlace) ∈ wakePlaces p k) ∧
      ∃ D : ℝ, ∀ t : V3, D ≤ t.norm → ∃ am' am'', AirplaneMovement.Shifted 0 am am' ∧ AirplaneMovement.Shifted t am am'' ∧
        ∃ q, study [am', am''] om (some n) none none (some 1) only = .ok q ∧
          ∀ z, UnsteadySolver.create q = .ok z → ∃ z₁, z.run true false = .ok z₁ ∧
            ∀ k < n, AirplaneStepNear p q 0 0 ε s₁ z₁ k ∧ AirplaneStepNear p q 1 t ε s₁ z₁ k := by
  obtain ⟨w, hw, -, h⟩ := heaving_movement_of 1 0 0
  obtain ⟨a, ha1⟩ : ∃ a, Airplane.create [w] = .ok a := ⟨_, rfl⟩
  obtain ⟨-, mv, p, h1, h2, hp, -⟩ := h a n hn 1 { density := 1, velocity := 1, alpha := 90, beta := 0 } only
  have hz : (fun k => (oscillatingSinspace 0 0 0 n 1).getD k 0) = fun _ => (0 : ℝ) := by
    funext k
    unfold oscillatingSinspace
    rw [if_pos (.inl rfl)]
    unfold constList
    rw [List.getD_eq_getElem?_getD, List.getElem?_replicate]
    split <;> simp
  rw [hz] at hp
  set op : OperatingPoint := { density := 1, velocity := 1, alpha := 90, beta := 0 } with hop
  have hd : op.freestreamDirection = ⟨0, 0, 1⟩ := by
    rw [C01_freestream_direction, show op.alpha * Real.pi / 180 = Real.pi / 2 by simp only [op]; ring]
    simp [op]
  have hv : op.freestreamVelocity = ⟨0, 0, 1⟩ := by
    rw [OperatingPoint.freestreamVelocity, hd]
    ext <;> simp [op]
  obtain ⟨s, hs⟩ := hp.create hn
  have hr : Reached p s := .fresh hs
  obtain ⟨s₁, h₁⟩ := hp.run zero_le_one (by simp [op]) (by rw [hd]; simp) hr true false
  set am : AirplaneMovement := { base := a, wingMovements := [heave w 0 0] } with ham
  have hst : study [am] { base := op } (some n) none none (some 1) only = .ok p := bind_ok.mpr ⟨mv, h1, h2⟩
  have hshift : ∀ t : V3, ∃ am', AirplaneMovement.Shifted t am am' := by
    intro t
    obtain ⟨w', hw', hmv, -⟩ := C64_translated_wing _ _ _ _ _ _ _ w hw t
    obtain ⟨a', ha2⟩ : ∃ a', Airplane.create [w'] (M3.one.mulVec 0 + t) = .ok a' := ⟨_, rfl⟩
    exact ⟨{ base := a', wingMovements := [{ heave w 0 0 with base := w' }] },
      ⟨[w], [w'], 0, 0, none, none, none, ha1, ha2, .cons hmv .nil⟩, .cons ⟨hmv, rfl⟩ .nil, rfl⟩
  refine ⟨am, _, p, s, s₁, hst, hs, h₁, fun k hk i hi => hp.place hk hi, ?_⟩
  obtain ⟨D, hD⟩ := C102_studies [am, am] (by simp) { base := op } n 1 one_ne_zero only true (fun _ => p) (fun _ => s)
    (fun _ => s₁) (fun _ => false) (by
      intro i am₁ hi
      have : am₁ = am := by
        have := List.mem_of_getElem? hi
        simpa using this
      rw [this]; exact hst)
    (fun _ _ => hr) (fun _ _ => h₁)
    (fun i _ k hk => plate_rising_offBorder hp hv hr h₁ k (by rw [hp.steps]; exact hk)) ε hε
  refine ⟨D, ?_⟩
  intro t ht
  obtain ⟨am', h'⟩ := hshift 0
  obtain ⟨am'', h''⟩ := hshift t
  refine ⟨am', am'', h', h'', ?_⟩
  obtain ⟨q, e1, e2, e3⟩ := hD (fun i => if i = 0 then 0 else t) [am', am''] rfl (by
    intro i b b' hb hb'
    match i with
    | 0 =>
      simp only [List.getElem?_cons_zero, Option.some.injEq] at hb hb'
      subst hb hb'; exact h'
    | 1 =>
      simp only [List.getElem?_cons_succ, List.getElem?_cons_zero, Option.some.injEq] at hb hb'
      subst hb hb'; exact h''
    | i + 2 => simp at hb)
  refine ⟨q, e1, ?_⟩
  intro z hz
  obtain ⟨z₁, f1, f2⟩ := e3 (by
    intro i j hi hj hij
    simp only [List.length_cons, List.length_nil] at hi hj
    have : (i = 0 ∧ j = 1) ∨ (i = 1 ∧ j = 0) := by omega
    rcases this with ⟨rfl, rfl⟩ | ⟨rfl, rfl⟩
    · simpa [V3.norm_neg] using ht
    · simpa using ht) z (.fresh hz) false
  refine ⟨z₁, f1, fun k hk => ⟨f2 0 (by simp) k hk, f2 1 (by simp) k hk⟩⟩

end Ptera
