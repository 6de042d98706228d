import Verif.Lemmas.NearbyUnsteady
import Verif.Props.Nearby
import Verif.Props.FinalLoads
import Verif.Lemmas.Finals
import Verif.Props.UnsteadyExample

/-!
# C97: a small change of an unsteady problem changes the results of every step only a little
-/

namespace Ptera

open Filter Topology UnsteadySolver

/-- C97: an unsteady problem that can be solved has nearby problems that can be solved too, from any state of their
solvers, and the results of all their steps are near; no point at which the velocity is computed may be exactly where
the solver begins to leave out a filament. -/
theorem C97_nearby {p : UnsteadyProblem} {s s₁ : UnsteadySolver} {pres sl : Bool} (hp : p.Made) (hdt : p.deltaTime ≠ 0)
    (hs : Reached p s) (h₁ : s.run pres sl = .ok s₁)
    (hcut : ∀ k < p.numSteps, ∀ x, EvaluatedAt p pres s₁ k x → ∀ f ∈ s₁.filaments k, f.OffBorder x)
    (ε : ℝ) (hε : 0 < ε) :
    ∃ δ > 0, ∀ q : UnsteadyProblem, q.Made → p.Near δ q → ∀ z, Reached q z → ∀ sl', ∃ z₁,
      z.run pres sl' = .ok z₁ ∧ ∀ k < p.numSteps, StepNear p ε s₁ z₁ k := by
  by_contra hcon
  push Not at hcon
  choose q hq hn z hz sl' hbad using fun n : ℕ => hcon (1 / ((n : ℝ) + 1)) (by positivity)
  have h : UnsteadyApproach atTop q p :=
    UnsteadyApproach.of_near tendsto_one_div_add_atTop_nhds_zero_nat hp hq hdt hn
  obtain ⟨st, sm, ht⟩ := hs.trace hp h₁
  obtain ⟨N, hN⟩ := eventually_atTop.mp (h.runs_exist ht hcut
    (fun k hk r d hd => (C91_unsteady hp hs h₁ k hk r d hd).1) hz pres sl')
  choose z₁ hz₁ using fun n : ℕ => hN (n + N) (by omega)
  have h' : UnsteadyApproach atTop (fun n => q (n + N)) p :=
    UnsteadyApproach.of_near (δ := fun n : ℕ => 1 / (((n + N : ℕ) : ℝ) + 1))
      ((tendsto_add_atTop_iff_nat N).mpr tendsto_one_div_add_atTop_nhds_zero_nat) hp (fun n => hq _) hdt
      (fun n => hn (n + N))
  obtain ⟨n, hfin⟩ := (h'.near hs (fun n => hz (n + N)) h₁ hz₁ hcut hε).exists
  obtain ⟨k, hk, hno⟩ := hbad (n + N) (z₁ n) (hz₁ n)
  exact hno (hfin k hk)

/-- C97: nearby problems can be solved with either kind of wake. -/
theorem C97_solvable {p : UnsteadyProblem} {s s₁ : UnsteadySolver} {pres sl : Bool} (hp : p.Made) (hdt : p.deltaTime ≠ 0)
    (hs : Reached p s) (h₁ : s.run pres sl = .ok s₁)
    (hcut : ∀ k < p.numSteps, ∀ x, EvaluatedAt p pres s₁ k x → ∀ f ∈ s₁.filaments k, f.OffBorder x) :
    ∃ δ > 0, ∀ q : UnsteadyProblem, q.Made → p.Near δ q → ∀ z, Reached q z → ∀ pres' sl', ∃ z₁,
      z.run pres' sl' = .ok z₁ := by
  by_contra hcon
  push Not at hcon
  choose q hq hn z hz pres' sl' hbad using fun n : ℕ => hcon (1 / ((n : ℝ) + 1)) (by positivity)
  have h : UnsteadyApproach atTop q p :=
    UnsteadyApproach.of_near tendsto_one_div_add_atTop_nhds_zero_nat hp hq hdt hn
  obtain ⟨st, sm, ht⟩ := hs.trace hp h₁
  have harea := fun k hk r d hd => (C91_unsteady hp hs h₁ k hk r d hd).1
  obtain ⟨n, ⟨z1, h1⟩, ⟨z2, h2⟩⟩ := ((h.runs_exist ht hcut harea hz true sl').and
    (h.runs_exist ht hcut harea hz false sl')).exists
  cases hb : pres' n with
  | true => rw [← hb] at h1; exact hbad n _ h1
  | false => rw [← hb] at h2; exact hbad n _ h2

/-- C97: the velocity reported at nearby points is near, at every step, unless the point is exactly where the solver
begins to leave out a filament. -/
theorem C97_flow_field {p : UnsteadyProblem} {s s₁ : UnsteadySolver} {pres sl : Bool} (hp : p.Made)
    (hdt : p.deltaTime ≠ 0) (hs : Reached p s) (h₁ : s.run pres sl = .ok s₁)
    (hcut : ∀ k < p.numSteps, ∀ x, EvaluatedAt p pres s₁ k x → ∀ f ∈ s₁.filaments k, f.OffBorder x)
    {k : ℕ} (hk : k < p.numSteps) (x₀ : V3) (hx₀ : ∀ f ∈ s₁.filaments k, f.OffBorder x₀) (ε : ℝ) (hε : 0 < ε) :
    ∃ δ > 0, ∀ q : UnsteadyProblem, q.Made → p.Near δ q → ∀ z z₁ sl' x, Reached q z → z.run pres sl' = .ok z₁ →
      (x - x₀).norm < δ → (flow z₁ k x - flow s₁ k x₀).norm < ε := by
  by_contra hcon
  push Not at hcon
  choose q hq hn z z₁ sl' x hz hz₁ hx hbad using fun n : ℕ => hcon (1 / ((n : ℝ) + 1)) (by positivity)
  have h : UnsteadyApproach atTop q p :=
    UnsteadyApproach.of_near tendsto_one_div_add_atTop_nhds_zero_nat hp hq hdt hn
  obtain ⟨st, sm, ht⟩ := hs.trace hp h₁
  choose zt zm ht' using fun n => (hz n).trace (hq n) (hz₁ n)
  have hxt : V3.Tends x atTop x₀ := V3.tends_of_norm (squeeze_zero (fun n => V3.norm_nonneg _) (fun n => (hx n).le)
    tendsto_one_div_add_atTop_nhds_zero_nat)
  obtain ⟨n, hn'⟩ := (((h.steps ht ht' hcut
    (fun k hk r d hd => (C91_unsteady hp hs h₁ k hk r d hd).1) k hk).2.2 x x₀ hx₀ hxt).close hε).exists
  exact absurd hn' (not_lt.mpr (hbad n))

/-! ## Results at the end of a run -/

theorem V3.norm_lt_of_parts {v : V3} {e : ℝ} (hx : |v.x| < e) (hy : |v.y| < e) (hz : |v.z| < e) : v.norm < 2 * e := by
  have he : 0 < e := (abs_nonneg _).trans_lt hx
  have h1 := sq_lt_sq' (by linarith [(abs_lt.mp hx).1]) (abs_lt.mp hx).2
  have h2 := sq_lt_sq' (by linarith [(abs_lt.mp hy).1]) (abs_lt.mp hy).2
  have h3 := sq_lt_sq' (by linarith [(abs_lt.mp hz).1]) (abs_lt.mp hz).2
  have : v.norm ^ 2 < (2 * e) ^ 2 := by
    rw [V3.norm_sq]
    simp only [V3.dot]
    nlinarith
  exact lt_of_pow_lt_pow_left₀ 2 (by linarith) this

/-- Root-mean-squares of near numbers are near. -/
theorem rms_near {S : Finset ℕ} {N r r' e : ℝ} {a b : ℕ → ℝ} (hN : 0 < N) (hS : (S.card : ℝ) = N) (hr : 0 ≤ r)
    (hr' : 0 ≤ r') (ha : N * r ^ 2 = ∑ k ∈ S, a k ^ 2) (hb : N * r' ^ 2 = ∑ k ∈ S, b k ^ 2) (he : 0 ≤ e)
    (h : ∀ k ∈ S, |b k - a k| ≤ e) : r' ≤ r + e := by
  have hc : (∑ k ∈ S, |a k|) ≤ N * r := by
    have h1 : (∑ k ∈ S, |a k|) ^ 2 ≤ (N * r) ^ 2 := by
      have := sq_sum_le_card_mul_sum_sq (s := S) (f := fun k => |a k|)
      simp only [sq_abs] at this
      rw [hS, ← ha] at this
      nlinarith
    exact (sq_le_sq₀ (Finset.sum_nonneg fun k _ => abs_nonneg _) (by positivity)).mp h1
  have hsum : ∑ k ∈ S, b k ^ 2 ≤ ∑ k ∈ S, (a k ^ 2 + 2 * e * |a k| + e ^ 2) := by
    apply Finset.sum_le_sum
    intro k hk
    have h1 := abs_le.mp (h k hk)
    have h2 : |b k| ≤ |a k| + e := by
      have := abs_add_le (a k) (b k - a k)
      rw [add_sub_cancel] at this
      linarith [h k hk]
    rw [← sq_abs (b k), ← sq_abs (a k)]
    nlinarith [abs_nonneg (b k), abs_nonneg (a k)]
  rw [Finset.sum_add_distrib, Finset.sum_add_distrib, ← Finset.mul_sum, ← ha, ← hb, Finset.sum_const, nsmul_eq_mul,
    hS] at hsum
  have : N * r' ^ 2 ≤ N * (r + e) ^ 2 := by nlinarith
  have := le_of_mul_le_mul_left this hN
  exact (sq_le_sq₀ hr' (by linarith)).mp this

/-- A load quantity of nearby steps is near. -/
theorem StepNear.quantity {p : UnsteadyProblem} {ε : ℝ} {s s' : UnsteadySolver} {k : ℕ} (h : StepNear p ε s s' k)
    (hk : p.firstResultsStep ≤ k) (hq : (p.operatingPointAt k).density ≠ 0 ∧ (p.operatingPointAt k).velocity ≠ 0)
    (href : ∀ a ∈ p.airplanesAt k, a.sRef ≠ 0 ∧ a.cRef ≠ 0 ∧ a.bRef ≠ 0) {i : ℕ} (hi : i < (p.airplanesAt k).length) :
    ∃ L L' : AirplaneLoads, (s.loads k)[i]? = some L ∧ (s'.loads k)[i]? = some L' ∧
      ∀ Q ∈ loadQuantities, (Q.2 L' - Q.2 L).norm < ε := by
  obtain ⟨L, L', h1, h2, h3, h4, h5⟩ := h.totals hk i _ (List.getElem?_eq_getElem hi)
  obtain ⟨n1, n2, n3⟩ := href _ (List.getElem_mem hi)
  obtain ⟨h6, h7⟩ := h5 hq.1 hq.2 n1 n2 n3
  refine ⟨L, L', h1, h2, ?_⟩
  intro Q hQ
  simp only [loadQuantities, List.mem_cons, List.not_mem_nil, or_false] at hQ
  rcases hQ with rfl | rfl | rfl | rfl
  · exact h3
  · exact h6
  · exact h4
  · exact h7

/-- C97: of a problem without period, the final forces, moments and coefficients of nearby problems are near. -/
theorem C97_final {p : UnsteadyProblem} {s s₁ : UnsteadySolver} {pres sl : Bool} (hp : p.Made) (hdt : 0 < p.deltaTime)
    (hs : Reached p s) (h₁ : s.run pres sl = .ok s₁)
    (hcut : ∀ k < p.numSteps, ∀ x, EvaluatedAt p pres s₁ k x → ∀ f ∈ s₁.filaments k, f.OffBorder x)
    (hstatic : p.maxPeriod = 0)
    (hq : ∀ k < p.numSteps, (p.operatingPointAt k).density ≠ 0 ∧ (p.operatingPointAt k).velocity ≠ 0)
    (href : ∀ k < p.numSteps, ∀ a ∈ p.airplanesAt k, a.sRef ≠ 0 ∧ a.cRef ≠ 0 ∧ a.bRef ≠ 0) (ε : ℝ) (hε : 0 < ε) :
    ∃ δ > 0, ∀ q : UnsteadyProblem, q.Made → q.maxPeriod = 0 → p.Near δ q → ∀ z, Reached q z → ∀ sl', ∃ z₁,
      z.run pres sl' = .ok z₁ ∧ ∀ Q ∈ loadQuantities, ∀ i < (p.airplanesAt 0).length, ∃ v v',
        addedResult (Q.1 s.final) (Q.1 s₁.final) i = some v ∧ addedResult (Q.1 z.final) (Q.1 z₁.final) i = some v' ∧
        (v' - v).norm < ε := by
  obtain ⟨δ, hδ, h⟩ := C97_nearby hp hdt.ne' hs h₁ hcut ε hε
  refine ⟨min δ p.deltaTime, lt_min hδ hdt, ?_⟩
  intro q hqm hqs hn z hz sl'
  obtain ⟨z₁, hz₁, hall⟩ := h q hqm (hn.mono (min_le_left _ _)) z hz sl'
  refine ⟨z₁, hz₁, ?_⟩
  have hdt' : 0 < q.deltaTime := by
    have := (abs_lt.mp (hn.deltaTime.trans_le (min_le_right _ _))).1
    linarith
  have hpos := hs.steps hp
  obtain ⟨w1, w2, w3, -⟩ := hp.window hpos hdt hstatic.ge
  obtain ⟨a1, a2, -⟩ := C47_static hp hs h₁ hdt hstatic
  obtain ⟨b1, b2, -⟩ := C47_static hqm hz hz₁ hdt' hqs
  rw [hn.numSteps] at b2
  have hlen := (C37_unsteady_steps hp hs h₁ (p.numSteps - 1) (by omega)).1 (by omega)
  intro Q hQ i hi
  obtain ⟨L, L', l1, l2, l3⟩ := (hall (p.numSteps - 1) (by omega)).quantity (by omega) (hq _ (by omega))
    (href _ (by omega)) (i := i) (by omega)
  refine ⟨Q.2 L, Q.2 L', ?_, ?_, l3 Q hQ⟩
  · rw [a2 Q hQ, addedResult_append, List.getElem?_map, l1]; rfl
  · rw [b2 Q hQ, addedResult_append, List.getElem?_map, l2]; rfl

/-- C97: of a problem with a period, the means and root-mean-squares over the last cycle of nearby problems with the same
averaging window are near. -/
theorem C97_averages {p : UnsteadyProblem} {s s₁ : UnsteadySolver} {pres sl : Bool} (hp : p.Made) (hdt : 0 < p.deltaTime)
    (hs : Reached p s) (h₁ : s.run pres sl = .ok s₁)
    (hcut : ∀ k < p.numSteps, ∀ x, EvaluatedAt p pres s₁ k x → ∀ f ∈ s₁.filaments k, f.OffBorder x)
    (hper : 0 < p.maxPeriod)
    (hq : ∀ k < p.numSteps, (p.operatingPointAt k).density ≠ 0 ∧ (p.operatingPointAt k).velocity ≠ 0)
    (href : ∀ k < p.numSteps, ∀ a ∈ p.airplanesAt k, a.sRef ≠ 0 ∧ a.cRef ≠ 0 ∧ a.bRef ≠ 0) (ε : ℝ) (hε : 0 < ε) :
    ∃ δ > 0, ∀ q : UnsteadyProblem, q.Made → 0 < q.maxPeriod → q.firstAveragingStep = p.firstAveragingStep →
      p.Near δ q → ∀ z, Reached q z → ∀ sl', ∃ z₁, z.run pres sl' = .ok z₁ ∧
      ∀ Q ∈ loadQuantities, ∀ i < (p.airplanesAt 0).length,
        (∃ v v', addedResult (Q.1 s.finalMean) (Q.1 s₁.finalMean) i = some v ∧
          addedResult (Q.1 z.finalMean) (Q.1 z₁.finalMean) i = some v' ∧ (v' - v).norm < ε) ∧
        (∃ v v', addedResult (Q.1 s.finalRms) (Q.1 s₁.finalRms) i = some v ∧
          addedResult (Q.1 z.finalRms) (Q.1 z₁.finalRms) i = some v' ∧ (v' - v).norm < ε) := by
  obtain ⟨δ, hδ, h⟩ := C97_nearby hp hdt.ne' hs h₁ hcut (ε / 4) (by linarith)
  refine ⟨min δ p.deltaTime, lt_min hδ hdt, ?_⟩
  intro q hqm hqp hwin hn z hz sl'
  obtain ⟨z₁, hz₁, hall⟩ := h q hqm (hn.mono (min_le_left _ _)) z hz sl'
  refine ⟨z₁, hz₁, ?_⟩
  have hdt' : 0 < q.deltaTime := by
    have := (abs_lt.mp (hn.deltaTime.trans_le (min_le_right _ _))).1
    linarith
  have hpos := hs.steps hp
  obtain ⟨w1, w2, w3, -⟩ := hp.window hpos hdt hper.le
  obtain ⟨a1, -, a2⟩ := C47_periodic hp hs h₁ hdt hper
  obtain ⟨b1, -, b2⟩ := C47_periodic hqm hz hz₁ hdt' hqp
  rw [hwin, hn.numSteps] at b1 b2
  intro Q hQ i hi
  have hi' : i < (q.airplanesAt 0).length := by
    have := (hn.steps 0 hpos).airplanes
    simp only at this
    omega
  obtain ⟨-, -, a3⟩ := a2 Q hQ
  obtain ⟨-, -, b3⟩ := b2 Q hQ
  obtain ⟨m, r, L, a4, a5, a6, a7⟩ := a3 i hi
  obtain ⟨m', r', L', b4, b5, b6, b7⟩ := b3 i hi'
  set first := p.firstAveragingStep.toNat with hfirst
  have hcard : ((Finset.Ico first p.numSteps).card : ℝ) = ((p.numSteps - first : ℕ) : ℝ) := by rw [Nat.card_Ico]
  have hN : (0 : ℝ) < ((p.numSteps - first : ℕ) : ℝ) := by
    rw [Nat.cast_pos]; omega
  have hstep : ∀ k ∈ Finset.Ico first p.numSteps, (Q.2 (L' k) - Q.2 (L k)).norm < ε / 4 := by
    intro k hk
    obtain ⟨k1, k2⟩ := Finset.mem_Ico.mp hk
    have hik : i < (p.airplanesAt k).length := by
      rw [← (C37_unsteady_steps hp hs h₁ k k2).1 (by omega)]
      exact (List.getElem?_eq_some_iff.mp (a6 k k1 k2)).1
    obtain ⟨M, M', l1, l2, l3⟩ := (hall k k2).quantity (by omega) (hq k k2) (href k k2) hik
    rw [a6 k k1 k2, Option.some.injEq] at l1
    rw [b6 k k1 k2, Option.some.injEq] at l2
    rw [l1, l2]
    exact l3 Q hQ
  have hpart : ∀ c ∈ [V3.x, V3.y, V3.z], ∀ k ∈ Finset.Ico first p.numSteps,
      |c (Q.2 (L' k)) - c (Q.2 (L k))| ≤ ε / 4 := by
    intro c hc k hk
    have := (hstep k hk).le
    simp only [List.mem_cons, List.not_mem_nil, or_false] at hc
    rcases hc with rfl | rfl | rfl
    · simpa using (V3.abs_x_le _).trans this
    · simpa using (V3.abs_y_le _).trans this
    · simpa using (V3.abs_z_le _).trans this
  have hmean : ∀ c ∈ [V3.x, V3.y, V3.z], |c m' - c m| < ε / 2 := by
    intro c hc
    have e1 := (a7 c hc).1
    have e2 := (b7 c hc).1
    have e3 : ((p.numSteps - first : ℕ) : ℝ) * (c m' - c m)
        = ∑ k ∈ Finset.Ico first p.numSteps, (c (Q.2 (L' k)) - c (Q.2 (L k))) := by
      rw [Finset.sum_sub_distrib, ← e1, ← e2]; ring
    have e4 : ((p.numSteps - first : ℕ) : ℝ) * |c m' - c m| ≤ ((p.numSteps - first : ℕ) : ℝ) * (ε / 4) := by
      rw [← abs_of_pos hN, ← abs_mul, abs_of_pos hN, e3]
      refine (Finset.abs_sum_le_sum_abs _ _).trans ((Finset.sum_le_sum (hpart c hc)).trans ?_)
      rw [Finset.sum_const, nsmul_eq_mul, hcard]
    have := le_of_mul_le_mul_left e4 hN
    linarith
  have hrms : ∀ c ∈ [V3.x, V3.y, V3.z], |c r' - c r| < ε / 2 := by
    intro c hc
    obtain ⟨-, e1, e2, -⟩ := a7 c hc
    obtain ⟨-, e3, e4, -⟩ := b7 c hc
    have h1 := rms_near (e := ε / 4) hN hcard e1 e3 e2 e4 (by linarith) (hpart c hc)
    have h2 := rms_near (e := ε / 4) hN hcard e3 e1 e4 e2 (by linarith) (fun k hk => by rw [abs_sub_comm]; exact hpart c hc k hk)
    rw [abs_lt]
    constructor <;> linarith
  refine ⟨⟨m, m', a4, b4, ?_⟩, ⟨r, r', a5, b5, ?_⟩⟩
  · have := V3.norm_lt_of_parts (v := m' - m) (e := ε / 2) (by simpa using hmean V3.x (by simp))
      (by simpa using hmean V3.y (by simp)) (by simpa using hmean V3.z (by simp))
    linarith
  · have := V3.norm_lt_of_parts (v := r' - r) (e := ε / 2) (by simpa using hrms V3.x (by simp))
      (by simpa using hrms V3.y (by simp)) (by simpa using hrms V3.z (by simp))
    linarith

/-! ## The plate in a flow from below -/

/-- The wake of the plate in a flow from below that rises by one chord per step. -/
theorem plate_rising_wake {p : UnsteadyProblem} {n : ℕ} {P : ℝ} {op : OperatingPoint}
    (hp : HeavingPlate p n 1 P (fun _ => 0) op) (hv : op.freestreamVelocity = ⟨0, 0, 1⟩) {s s₁ : UnsteadySolver} {sl : Bool}
    (hs : Reached p s) (h₁ : s.run true sl = .ok s₁) :
    (∀ k < n, ∃ v, (s₁.panels k ⟨0, 0, 0, 0⟩).ring = some v ∧ v.frontLeft = ⟨1 / 4, 0, 0⟩ ∧ v.frontRight = ⟨1 / 4, 1, 0⟩ ∧
      v.backLeft = ⟨5 / 4, 0, 1 / 4⟩ ∧ v.backRight = ⟨5 / 4, 1, 1 / 4⟩) ∧
    ∀ k < n, ∀ i < k, ∃ w, wakeRecord s₁ k ⟨0, 0, i, 0⟩ = some w ∧ w.frontLeft = ⟨5 / 4, 0, 1 / 4 + i⟩ ∧
      w.frontRight = ⟨5 / 4, 1, 1 / 4 + i⟩ ∧ w.backLeft = ⟨5 / 4, 0, 5 / 4 + i⟩ ∧ w.backRight = ⟨5 / 4, 1, 5 / 4 + i⟩ := by
  obtain ⟨st, sm, ht⟩ := hs.trace hp.made h₁
  have hring : ∀ k < n, ∃ v, (s₁.panels k ⟨0, 0, 0, 0⟩).ring = some v ∧ v.frontLeft = ⟨1 / 4, 0, 0⟩ ∧
      v.frontRight = ⟨1 / 4, 1, 0⟩ ∧ v.backLeft = ⟨5 / 4, 0, 1 / 4⟩ ∧ v.backRight = ⟨5 / 4, 1, 1 / 4⟩ := by
    intro k hk
    obtain ⟨hr, hq⟩ := hp.refs hk
    obtain ⟨g, hg⟩ := ht.rings (r := ⟨0, 0, 0, 0⟩) (by rw [hp.steps]; exact hk) (by rw [hr]; simp)
    have hgeo := geometryOf_eq hq
    obtain ⟨g1, g2, g3⟩ := squareAt_points 0
    have hte : (squareAt 0).isTrailingEdge = true := rfl
    have hop : (p.operatingPointAt k).freestreamVelocity = ⟨0, 0, 1⟩ := by rw [(hp.step k hk).1, hv]
    refine ⟨_, hg, ?_, ?_, ?_, ?_⟩ <;>
      simp only [RingVortex.updateStrength, boundRing, panelRing, RingVortex.mk', backLeftVertex, backRightVertex, hgeo, g2,
        g3, hte, if_true, hop, hp.dt]
    · ext <;> simp [squareAt] <;> norm_num
    · ext <;> simp [squareAt] <;> norm_num
  refine ⟨hring, ?_⟩
  have hvel : ∀ k < n, ∀ x : V3, (fun _ => (⟨0, 0, 1⟩ : V3)) x =
      if true then (p.operatingPointAt k).freestreamVelocity else flow s₁ k x := by
    intro k hk x
    rw [if_pos rfl, (hp.step k hk).1, hv]
  have hfront : ∀ k < n, 0 < k → ∃ w, wakeRecord s₁ k ⟨0, 0, 0, 0⟩ = some w ∧ w.frontLeft = ⟨5 / 4, 0, 1 / 4⟩ ∧
      w.frontRight = ⟨5 / 4, 1, 1 / 4⟩ := by
    intro k hk h0
    obtain ⟨v, ring, e1, e2, e3, -, e4⟩ := C43_attached hp.made hs h₁ k (by rw [hp.steps]; exact hk) _ (hp.place hk h0)
      rfl _ (hp.trailing hk)
    obtain ⟨u, f1, f2, f3, f4, f5⟩ := hring k hk
    rw [f1, Option.some.injEq] at e2
    subst e2
    refine ⟨v, e1, by rw [e3, f4], ?_⟩
    rw [e4 ?_, f5]
    obtain ⟨_, a, w, h1, h2, _, h4, _, _⟩ := hp.step k hk
    simp [panelAt, wingAt, h1, h2, h4]
  intro k
  induction k with
  | zero => intro _ i hi; omega
  | succ k ih =>
    intro hk i hi
    by_cases hk0 : k = 0
    · subst hk0
      obtain rfl : i = 0 := by omega
      obtain ⟨w, e1, e2, e3⟩ := hfront 1 hk (by omega)
      obtain ⟨w', f1, f2, f3⟩ := C43_first hp.made hs h₁ (by rw [hp.steps]; omega) ⟨0, 0, 0, 0⟩ (hp.place hk (by omega))
        (fun _ => ⟨0, 0, 1⟩) (hvel 0 (by omega))
      rw [e1, Option.some.injEq] at f1
      subst f1
      refine ⟨w, e1, by rw [e2]; simp, by rw [e3]; simp, ?_, ?_⟩
      · rw [f2, e2, hp.dt]; ext <;> simp; norm_num
      · rw [f3, e3, hp.dt]; ext <;> simp; norm_num
    · cases i with
      | succ i =>
        obtain ⟨w, e1, e2, e3, e4, e5⟩ := ih (by omega) i (by omega)
        obtain ⟨w', w'', f1, f2, f3, f4, f5, f6⟩ := C43_convected hp.made hs h₁ k (by rw [hp.steps]; omega) ⟨0, 0, i, 0⟩
          (hp.place (by omega) (by omega)) (fun _ => ⟨0, 0, 1⟩) (hvel k (by omega))
        rw [e1, Option.some.injEq] at f1
        subst f1
        refine ⟨w'', f2, ?_, ?_, ?_, ?_⟩
        · rw [f3, e2, hp.dt]; ext <;> simp; ring
        · rw [f4, e3, hp.dt]; ext <;> simp; ring
        · rw [f5, e4, hp.dt]; ext <;> simp; ring
        · rw [f6, e5, hp.dt]; ext <;> simp; ring
      | zero =>
        obtain ⟨w, e1, e2, e3⟩ := hfront (k + 1) hk (by omega)
        obtain ⟨u, d1, d2, d3, d4, d5⟩ := ih (by omega) 0 (by omega)
        obtain ⟨w', w'', f1, f2, f3, f4, f5, f6⟩ := C43_convected hp.made hs h₁ k (by rw [hp.steps]; omega) ⟨0, 0, 0, 0⟩
          (hp.place (by omega) (by omega)) (fun _ => ⟨0, 0, 1⟩) (hvel k (by omega))
        obtain ⟨c1, c2, c3, c4, c5, c6⟩ := (C43_connected hp.made hs h₁ (k + 1) (by rw [hp.steps]; omega) ⟨0, 0, 0, 0⟩
          (hp.place (by omega) (by omega))).2 (hp.place (i := 1) (by omega) (by omega))
        rw [d1, Option.some.injEq] at f1
        subst f1
        rw [e1, Option.some.injEq] at c3
        subst c3
        simp only [WakePlace.behind] at f2
        rw [f2, Option.some.injEq] at c4
        subst c4
        refine ⟨w, e1, by rw [e2]; simp, by rw [e3]; simp, ?_, ?_⟩
        · rw [c5, f3, d2, hp.dt]; ext <;> simp; norm_num
        · rw [c6, f4, d3, hp.dt]; ext <;> simp; norm_num

/-- A filament clear of the point by a quarter, or in line with it. -/
theorem offBorder_of {f : Seg} {q : V3} (h1 : 1 / 16 ≤ (f.origin - q).dot (f.origin - q))
    (h2 : 1 / 16 ≤ (f.termination - q).dot (f.termination - q))
    (h3 : (f.origin - q).cross (f.termination - q) = 0 ∨
      1 / 16 ≤ ((f.origin - q).cross (f.termination - q)).dot ((f.origin - q).cross (f.termination - q))) :
    f.OffBorder q := by
  have := not_atCutOff (l := LineVortex.mk' f.origin f.termination 0) (q := q) h1 h2 h3
  unfold AtCutOff at this
  push Not at this
  exact this

/-- The filaments of the rising wake are at `x = 5/4`. -/
theorem offBorder_behind {f : Seg} {q : V3} (h1 : f.origin.x = 5 / 4) (h2 : f.termination.x = 5 / 4) (hq : q.x ≤ 3 / 4)
    (h : 1 ≤ (f.termination.y - f.origin.y) ^ 2 + (f.termination.z - f.origin.z) ^ 2) : f.OffBorder q := by
  have hx : 1 / 4 ≤ (5 / 4 - q.x) ^ 2 := by nlinarith
  refine offBorder_of ?_ ?_ (.inr ?_)
  · simp only [V3.dot, V3.sub_x, V3.sub_y, V3.sub_z, h1]
    nlinarith [sq_nonneg (f.origin.y - q.y), sq_nonneg (f.origin.z - q.z)]
  · simp only [V3.dot, V3.sub_x, V3.sub_y, V3.sub_z, h2]
    nlinarith [sq_nonneg (f.termination.y - q.y), sq_nonneg (f.termination.z - q.z)]
  · have hy : ((f.origin - q).cross (f.termination - q)).y = (5 / 4 - q.x) * (f.origin.z - f.termination.z) := by
      simp [h1, h2]; ring
    have hz : ((f.origin - q).cross (f.termination - q)).z = (5 / 4 - q.x) * (f.termination.y - f.origin.y) := by
      simp [h1, h2]; ring
    simp only [V3.dot]
    rw [hy, hz]
    have : 1 / 4 * 1 ≤ (5 / 4 - q.x) ^ 2 * ((f.termination.y - f.origin.y) ^ 2 + (f.termination.z - f.origin.z) ^ 2) :=
      mul_le_mul hx h (by norm_num) (by positivity)
    nlinarith [mul_self_nonneg ((f.origin - q).cross (f.termination - q)).x]

/-- No point at which the velocity is computed is on the border of a left-out region. -/
theorem plate_rising_offBorder {p : UnsteadyProblem} {n : ℕ} {P : ℝ} {op : OperatingPoint}
    (hp : HeavingPlate p n 1 P (fun _ => 0) op) (hv : op.freestreamVelocity = ⟨0, 0, 1⟩) {s s₁ : UnsteadySolver} {sl : Bool}
    (hs : Reached p s) (h₁ : s.run true sl = .ok s₁) :
    ∀ k < p.numSteps, ∀ x, EvaluatedAt p true s₁ k x → ∀ f ∈ s₁.filaments k, f.OffBorder x := by
  obtain ⟨hring, hwake⟩ := plate_rising_wake hp hv hs h₁
  obtain ⟨st, sm, ht⟩ := hs.trace hp.made h₁
  intro k hk x hx f hf
  have hk' : k < n := by rw [← hp.steps]; exact hk
  obtain ⟨hr, hq⟩ := hp.refs hk'
  obtain ⟨v, v1, v2, v3, v4, v5⟩ := hring k hk'
  have hone : ∀ r d, panelAt (p.airplanesAt k) r = some d → r = ⟨0, 0, 0, 0⟩ ∧ d = squareAt 0 := by
    intro r d h
    have := (mem_panelRefs _ _).mpr ⟨d, h⟩
    rw [hr, List.mem_singleton] at this
    subst this
    exact ⟨rfl, Option.some.inj (h.symm.trans hq)⟩
  have hpoint : x = ⟨3 / 4, 1 / 2, 0⟩ ∨ x = ⟨1 / 4, 1 / 2, 0⟩ ∨ x = ⟨3 / 4, 0, 1 / 8⟩ ∨ x = ⟨3 / 4, 1, 1 / 8⟩ := by
    cases hx with
    | collocation h =>
      obtain ⟨-, rfl⟩ := hone _ _ h
      exact .inl (squareAt_points 0).1
    | middle h hv' hm =>
      obtain ⟨rfl, -⟩ := hone _ _ h
      rw [v1, Option.some.injEq] at hv'
      subst hv'
      rcases hm with rfl | rfl | rfl
      · right; left
        unfold RingVortex.frontMiddle
        rw [v2, v3]
        ext <;> simp <;> norm_num
      · right; right; left
        unfold RingVortex.leftMiddle
        rw [v2, v4]
        ext <;> simp <;> norm_num
      · right; right; right
        unfold RingVortex.rightMiddle
        rw [v3, v5]
        ext <;> simp <;> norm_num
    | wake h => cases h
    | firstWake h => cases h
  have hx3 : x.x ≤ 3 / 4 := by rcases hpoint with rfl | rfl | rfl | rfl <;> norm_num
  unfold UnsteadySolver.filaments at hf
  rw [ht.final_eq.2.2.2.2.2.2, hr, ht.places hk, List.mem_append] at hf
  rcases hf with hf | hf
  · simp only [List.flatMap_cons, List.flatMap_nil, List.append_nil, v1, Option.map_some, Option.getD_some,
      RingVortex.filaments, ringFilaments, v2, v3, v4, v5, List.mem_cons, List.not_mem_nil, or_false] at hf
    rcases hf with rfl | rfl | rfl | rfl <;> rcases hpoint with rfl | rfl | rfl | rfl <;> apply offBorder_of <;>
      first
      | (simp [V3.dot]; norm_num; done)
      | (simp [V3.dot]; done)
      | (left; ext <;> simp <;> norm_num; done)
      | (right; simp [V3.dot]; norm_num; done)
  · simp only [Option.getD_some, List.mem_flatMap, List.mem_map] at hf
    obtain ⟨w, ⟨d, hd, rfl⟩, hf⟩ := hf
    obtain ⟨hrow, W, hW, hcol⟩ := mem_wakePlaces.mp hd
    have hd' : d = ⟨0, 0, d.row, 0⟩ := by
      obtain ⟨_, a, w, h1, h2, h3, h4, _, _⟩ := hp.step k hk'
      unfold UnsteadyProblem.wing? at hW
      rw [h1, Option.bind_eq_some_iff] at hW
      obtain ⟨b, hb, hW⟩ := hW
      obtain ⟨a0, -⟩ := List.getElem?_eq_some_iff.mp hb
      have hb' := List.mem_of_getElem? hb
      rw [List.mem_singleton] at hb'
      subst hb'
      rw [h2] at hW
      obtain ⟨w0, -⟩ := List.getElem?_eq_some_iff.mp hW
      have hw' := List.mem_of_getElem? hW
      rw [List.mem_singleton] at hw'
      subst hw'
      obtain ⟨d1, d2, d3, d4⟩ := d
      rw [h3] at hcol
      simp only [List.length_singleton] at a0 w0 hcol
      simp only [WakePlace.mk.injEq]
      exact ⟨by omega, by omega, trivial, by omega⟩
    obtain ⟨u, u1, u2, u3, u4, u5⟩ := hwake k hk' d.row hrow
    rw [← hd', ht.wakeRecord hk hd, Option.some.injEq] at u1
    rw [u1] at hf
    simp only [WakeSlot.filaments, ringFilaments, u2, u3, u4, u5, List.mem_cons, List.not_mem_nil, or_false] at hf
    rcases hf with rfl | rfl | rfl | rfl <;> refine offBorder_behind rfl rfl hx3 ?_ <;> simp <;> norm_num

/-- The hypotheses are met: the plate flown for any number of steps in a flow from below, with a prescribed wake. -/
example (n : ℕ) (hn : 0 < n) (ε : ℝ) (hε : 0 < ε) : ∃ (p : UnsteadyProblem) (s s₁ : UnsteadySolver), p.Made ∧
    UnsteadySolver.create p = .ok s ∧ s.run true false = .ok s₁ ∧ p.numSteps = n ∧
    ∃ δ > 0, ∀ q : UnsteadyProblem, q.Made → q.maxPeriod = 0 → p.Near δ q → ∀ z, Reached q z → ∃ z₁,
      z.run true false = .ok z₁ ∧ ∃ v v', s₁.final.forceCoefficients[0]? = some v ∧
        addedResult z.final.forceCoefficients z₁.final.forceCoefficients 0 = some v' ∧ (v' - v).norm < ε := by
  obtain ⟨p, hp, _⟩ := heaving_problem 0 0 n hn 1 1 1 90 0 false
  have hz : (fun k => (oscillatingSinspace 0 0 0 n 1).getD k 0) = fun _ => 0 := by
    funext k
    unfold oscillatingSinspace
    rw [if_pos (.inl rfl)]
    unfold constList
    rw [List.getD_eq_getElem?_getD, List.getElem?_replicate]
    split <;> simp
  rw [hz] at hp
  set op : OperatingPoint := { density := 1, velocity := 1, alpha := 90, beta := 0 } with hop
  have hd : op.freestreamDirection = ⟨0, 0, 1⟩ := by
    rw [C01_freestream_direction, show op.alpha * Real.pi / 180 = Real.pi / 2 by simp only [op]; ring]
    simp [op]
  have hv : op.freestreamVelocity = ⟨0, 0, 1⟩ := by
    rw [OperatingPoint.freestreamVelocity, hd]
    ext <;> simp [op]
  obtain ⟨s, hs⟩ := hp.create hn
  have hr : Reached p s := .fresh hs
  obtain ⟨s₁, h₁⟩ := hp.run zero_le_one (by simp [op]) (by rw [hd]; simp) hr true false
  refine ⟨p, s, s₁, hp.made, hs, h₁, hp.steps, ?_⟩
  have hstatic : p.maxPeriod = 0 := by rw [hp.period]; simp
  obtain ⟨δ, hδ, h⟩ := C97_final hp.made (by rw [hp.dt]; norm_num) hr h₁ (plate_rising_offBorder hp hv hr h₁) hstatic
    (by
      intro k hk
      rw [hp.steps] at hk
      rw [(hp.step k hk).1]
      simp [op])
    (by
      intro k hk a ha
      rw [hp.steps] at hk
      obtain ⟨_, b, w, h1, _, _, _, _, h6⟩ := hp.step k hk
      obtain ⟨r1, r2⟩ := hp.references k hk a ha
      rw [h1, List.mem_singleton] at ha
      rw [ha, h6, ← ha, r1, r2]
      simp) ε hε
  refine ⟨δ, hδ, ?_⟩
  intro q hq hqs hnear z hz
  obtain ⟨z₁, hz₁, hall⟩ := h q hq hqs hnear z hz false
  obtain ⟨v, v', e1, e2, e3⟩ := hall (ResultLists.forceCoefficients, AirplaneLoads.forceCoefficients)
    (by simp [loadQuantities]) 0 (by
      obtain ⟨_, a, w, h1, _⟩ := hp.step 0 hn
      rw [h1]; simp)
  refine ⟨z₁, hz₁, v, v', ?_, e2, e3⟩
  have hnew : s.final = {} := by
    unfold UnsteadySolver.create at hs
    split at hs
    · simp at hs
    · rw [← Except.ok.inj hs]
  rw [hnew] at e1
  simpa [addedResult] using e1

end Ptera
