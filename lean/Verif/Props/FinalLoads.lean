import Verif.Props.UnsteadyReruns
import Mathlib.Algebra.Order.Chebyshev
import Mathlib.Algebra.BigOperators.Field
import Mathlib.Algebra.BigOperators.Intervals

/-!
# C47: final loads are those of the last step, or mean and root-mean-square over the averaging window
-/

namespace Ptera

open UnsteadySolver Finset

theorem sum_range_drop (a : ℕ) (g : ℕ → ℝ) (n : ℕ) (h : a ≤ n) :
    (((List.range n).drop a).map g).sum = ∑ k ∈ Ico a n, g k := by
  induction n, h using Nat.le_induction with
  | base => rw [List.drop_eq_nil_of_le (by simp)]; simp
  | succ n h ih =>
    rw [List.range_succ, List.drop_append_of_le_length (by simpa using h), List.map_append, List.sum_append, ih,
      Finset.sum_Ico_succ_top h]
    simp

/-- Mean and root-mean-square of a list that is a window of a sequence. -/
theorem window_mean (a n : ℕ) (h : a < n) (v : ℕ → ℝ) :
    let l := ((List.range n).drop a).map v
    let m := mean l
    let r := Real.sqrt (mean (l.map fun x => x ^ 2))
    ((n - a : ℕ) : ℝ) * m = ∑ k ∈ Ico a n, v k ∧ 0 ≤ r ∧ ((n - a : ℕ) : ℝ) * r ^ 2 = ∑ k ∈ Ico a n, v k ^ 2 ∧
    |m| ≤ r ∧ (∀ lo hi, (∀ k, a ≤ k → k < n → lo ≤ v k ∧ v k ≤ hi) → lo ≤ m ∧ m ≤ hi) ∧
    (∀ c, (∀ k, a ≤ k → k < n → v k = c) → m = c ∧ r = |c|) := by
  intro l m r
  have hc : (0 : ℝ) < ((n - a : ℕ) : ℝ) := by exact_mod_cast Nat.sub_pos_of_lt h
  have hlen : (l.length : ℝ) = ((n - a : ℕ) : ℝ) := by simp [l]
  have hlen2 : ((l.map fun x => x ^ 2).length : ℝ) = ((n - a : ℕ) : ℝ) := by simp [l]
  have hm : m = (∑ k ∈ Ico a n, v k) / ((n - a : ℕ) : ℝ) := by
    simp only [m, mean]
    rw [hlen]
    congr 1
    exact sum_range_drop a v n h.le
  have hr0 : 0 ≤ r := Real.sqrt_nonneg _
  have hsq : mean (l.map fun x => x ^ 2) = (∑ k ∈ Ico a n, v k ^ 2) / ((n - a : ℕ) : ℝ) := by
    unfold mean
    rw [hlen2]
    congr 1
    rw [← sum_range_drop a (fun k => v k ^ 2) n h.le]
    simp only [l, List.map_map]
    rfl
  have hsq0 : 0 ≤ (∑ k ∈ Ico a n, v k ^ 2) / ((n - a : ℕ) : ℝ) :=
    div_nonneg (Finset.sum_nonneg fun k _ => sq_nonneg _) hc.le
  have hr2 : r ^ 2 = (∑ k ∈ Ico a n, v k ^ 2) / ((n - a : ℕ) : ℝ) := by
    simp only [r]
    rw [hsq, Real.sq_sqrt hsq0]
  have hle : |m| ≤ r := by
    apply abs_le_of_sq_le_sq _ hr0
    rw [hr2, hm, div_pow, div_le_div_iff₀ (by positivity) hc]
    have := sq_sum_le_card_mul_sum_sq (s := Ico a n) (f := v)
    rw [Nat.card_Ico] at this
    nlinarith
  have hb : ∀ lo hi, (∀ k, a ≤ k → k < n → lo ≤ v k ∧ v k ≤ hi) → lo ≤ m ∧ m ≤ hi := by
    intro lo hi hv
    rw [hm, le_div_iff₀ hc, div_le_iff₀ hc]
    have e1 := Finset.card_nsmul_le_sum (Ico a n) v lo fun k hk => (hv k (mem_Ico.mp hk).1 (mem_Ico.mp hk).2).1
    have e2 := Finset.sum_le_card_nsmul (Ico a n) v hi fun k hk => (hv k (mem_Ico.mp hk).1 (mem_Ico.mp hk).2).2
    rw [Nat.card_Ico, nsmul_eq_mul] at e1 e2
    exact ⟨by linarith, by linarith⟩
  refine ⟨?_, hr0, ?_, hle, hb, ?_⟩
  · rw [hm]; field_simp
  · rw [hr2]; field_simp
  · intro c hv
    have e := hb c c fun k h1 h2 => by rw [hv k h1 h2]; exact ⟨le_rfl, le_rfl⟩
    refine ⟨le_antisymm e.2 e.1, ?_⟩
    have : r ^ 2 = c ^ 2 := by
      rw [hr2, Finset.sum_congr rfl (g := fun _ => c ^ 2) fun k hk => by
        rw [hv k (mem_Ico.mp hk).1 (mem_Ico.mp hk).2], Finset.sum_const, Nat.card_Ico, nsmul_eq_mul]
      field_simp
    rw [← abs_of_nonneg hr0]
    exact (sq_eq_sq_iff_abs_eq_abs r c).mp this

variable {p : UnsteadyProblem} {s s' : UnsteadySolver} {pres sl : Bool}

/-- C47 (static problems): with no period, a run appends the loads of the last step, one entry per airplane in
order, and no means. -/
theorem C47_static (hp : p.Made) (hs : Reached p s) (h : s.run pres sl = .ok s') (hdt : 0 < p.deltaTime)
    (hstatic : p.maxPeriod = 0) :
    (s'.loads (p.numSteps - 1)).length = (p.airplanesAt 0).length ∧
    (∀ q ∈ loadQuantities, q.1 s'.final = q.1 s.final ++ (s'.loads (p.numSteps - 1)).map q.2) ∧
    s'.finalMean = s.finalMean ∧ s'.finalRms = s.finalRms := by
  obtain ⟨st, sm, ht⟩ := hs.trace hp h
  have hn := hs.steps hp
  obtain ⟨w1, w2, w3, w4⟩ := hp.window hn hdt hstatic.ge
  have hfirst : p.firstAveragingStep = (p.numSteps : ℤ) - 1 := by rw [w4, averagingStart, if_pos hstatic]
  obtain ⟨e1, e2, e3⟩ := ht.run_finals.1 hstatic
  have hlen : (s'.loads (p.numSteps - 1)).length = (p.airplanesAt 0).length := by
    rw [(C37_unsteady_steps hp hs h (p.numSteps - 1) (by omega)).1 (by omega)]
    have := congrArg List.length (hp.regular.same (p.numSteps - 1) (by omega))
    simpa [layout] using this
  refine ⟨hlen, ?_, e2, e3⟩
  have hh : ∀ (f : AirplaneLoads → V3) (i : ℕ), (s'.history f i).getLastD 0
      = (((s'.loads (p.numSteps - 1))[i]?).map f).getD 0 := by
    intro f i
    unfold history averagingSteps
    rw [ht.final_eq.2.2.2.2.2.2, show p.firstAveragingStep.toNat = p.numSteps - 1 by omega]
    obtain ⟨m, hm⟩ : ∃ m, p.numSteps = m + 1 := ⟨p.numSteps - 1, by omega⟩
    rw [hm, List.range_succ, Nat.add_sub_cancel, List.drop_append_of_le_length (by simp)]
    simp
  have hmap : ∀ f : AirplaneLoads → V3, (List.range (p.airplanesAt 0).length).map
      (fun i => (((s'.loads (p.numSteps - 1))[i]?).map f).getD 0) = (s'.loads (p.numSteps - 1)).map f := by
    intro f
    apply List.ext_getElem
    · simp [hlen]
    · intro i h1 h2
      simp only [List.length_map] at h2
      simp [h2]
  intro q hq
  rw [e1, foldl_appendResults]
  simp only [loadQuantities, List.mem_cons, List.not_mem_nil, or_false] at hq
  rcases hq with rfl | rfl | rfl | rfl <;> simp only [hh, hmap]

/-- C47 (problems with a period): a run appends per airplane the mean and the root-mean-square of each load quantity,
component by component, over the steps from the first averaging step to the last; the mean lies between the extremes
of the window, the root-mean-square is at least the absolute value of the mean, and a constant history has mean equal
to its value and root-mean-square equal to its absolute value. Nothing is appended to the final loads. -/
theorem C47_periodic (hp : p.Made) (hs : Reached p s) (h : s.run pres sl = .ok s') (hdt : 0 < p.deltaTime)
    (hP : 0 < p.maxPeriod) :
    let first := p.firstAveragingStep.toNat
    first < p.numSteps ∧ s'.final = s.final ∧
    ∀ q ∈ loadQuantities,
      (q.1 s'.finalMean).length = (q.1 s.finalMean).length + (p.airplanesAt 0).length ∧
      (q.1 s'.finalRms).length = (q.1 s.finalRms).length + (p.airplanesAt 0).length ∧
      ∀ i < (p.airplanesAt 0).length, ∃ (average rms : V3) (load : ℕ → AirplaneLoads),
        (q.1 s'.finalMean)[(q.1 s.finalMean).length + i]? = some average ∧
        (q.1 s'.finalRms)[(q.1 s.finalRms).length + i]? = some rms ∧
        (∀ k, first ≤ k → k < p.numSteps → (s'.loads k)[i]? = some (load k)) ∧
        ∀ c ∈ [V3.x, V3.y, V3.z],
          ((p.numSteps - first : ℕ) : ℝ) * c average = ∑ k ∈ Ico first p.numSteps, c (q.2 (load k)) ∧
          0 ≤ c rms ∧
          ((p.numSteps - first : ℕ) : ℝ) * c rms ^ 2 = ∑ k ∈ Ico first p.numSteps, c (q.2 (load k)) ^ 2 ∧
          |c average| ≤ c rms ∧
          (∀ lo hi, (∀ k, first ≤ k → k < p.numSteps → lo ≤ c (q.2 (load k)) ∧ c (q.2 (load k)) ≤ hi) →
            lo ≤ c average ∧ c average ≤ hi) ∧
          (∀ v, (∀ k, first ≤ k → k < p.numSteps → c (q.2 (load k)) = v) → c average = v ∧ c rms = |v|) := by
  intro first
  obtain ⟨st, sm, ht⟩ := hs.trace hp h
  have hn := hs.steps hp
  obtain ⟨w1, w2, w3, _⟩ := hp.window hn hdt hP.le
  have hlt : first < p.numSteps := by simp only [first]; omega
  obtain ⟨e1, e2, e3⟩ := ht.run_finals.2 hP.ne'
  refine ⟨hlt, e1, ?_⟩
  have key : ∀ (f : AirplaneLoads → V3), ∀ i < (p.airplanesAt 0).length, ∃ load : ℕ → AirplaneLoads,
        (∀ k, first ≤ k → k < p.numSteps → (s'.loads k)[i]? = some (load k)) ∧
        ∀ c ∈ [V3.x, V3.y, V3.z],
          ((p.numSteps - first : ℕ) : ℝ) * c (meanOf (s'.history f i))
            = ∑ k ∈ Ico first p.numSteps, c (f (load k)) ∧
          0 ≤ c (rmsOf (s'.history f i)) ∧
          ((p.numSteps - first : ℕ) : ℝ) * c (rmsOf (s'.history f i)) ^ 2
            = ∑ k ∈ Ico first p.numSteps, c (f (load k)) ^ 2 ∧
          |c (meanOf (s'.history f i))| ≤ c (rmsOf (s'.history f i)) ∧
          (∀ lo hi, (∀ k, first ≤ k → k < p.numSteps → lo ≤ c (f (load k)) ∧ c (f (load k)) ≤ hi) →
            lo ≤ c (meanOf (s'.history f i)) ∧ c (meanOf (s'.history f i)) ≤ hi) ∧
          (∀ v, (∀ k, first ≤ k → k < p.numSteps → c (f (load k)) = v) →
            c (meanOf (s'.history f i)) = v ∧ c (rmsOf (s'.history f i)) = |v|) := by
    intro f i hi
    have hex : ∀ k, ∃ L : AirplaneLoads, first ≤ k → k < p.numSteps → (s'.loads k)[i]? = some L := by
      intro k
      by_cases hk : first ≤ k ∧ k < p.numSteps
      · have hl : i < (s'.loads k).length := by
          rw [(C37_unsteady_steps hp hs h k hk.2).1 (by simp only [first] at hk; omega)]
          have := congrArg List.length (hp.regular.same k hk.2)
          simp only [layout, List.length_map] at this
          omega
        exact ⟨(s'.loads k)[i], fun _ _ => List.getElem?_eq_getElem hl⟩
      · exact ⟨⟨0, 0, 0, 0⟩, fun h1 h2 => absurd ⟨h1, h2⟩ hk⟩
    choose load hload using hex
    refine ⟨load, hload, ?_⟩
    have hhist : s'.history f i = ((List.range p.numSteps).drop first).map fun k => f (load k) := by
      unfold history averagingSteps
      rw [ht.final_eq.2.2.2.2.2.2]
      apply List.map_congr_left
      intro k hk
      have hk1 : k < p.numSteps := by simpa using List.mem_of_mem_drop hk
      have hk2 : first ≤ k := by
        obtain ⟨j, hj, rfl⟩ := List.getElem_of_mem hk
        simp [first]
      rw [hload k hk2 hk1]
      rfl
    intro c hc
    have := window_mean first p.numSteps hlt fun k => c (f (load k))
    simp only [List.map_map] at this
    rw [hhist]
    simp only [List.mem_cons, List.not_mem_nil, or_false] at hc
    rcases hc with rfl | rfl | rfl
    · simpa only [meanOf, rmsOf, List.map_map, Function.comp_def] using this
    · simpa only [meanOf, rmsOf, List.map_map, Function.comp_def] using this
    · simpa only [meanOf, rmsOf, List.map_map, Function.comp_def] using this
  intro q hq
  rw [e2, e3, foldl_appendResults, foldl_appendResults]
  simp only [loadQuantities, List.mem_cons, List.not_mem_nil, or_false] at hq
  rcases hq with rfl | rfl | rfl | rfl
  all_goals
    refine ⟨by simp, by simp, ?_⟩
    intro i hi
    obtain ⟨load, h1, h2⟩ := key _ i hi
    exact ⟨_, _, load, by simp [hi], by simp [hi], h1, h2⟩

/-- C47 (mean coefficients): if the dynamic pressure and the airplane's reference area are the same at every step of
the window, the mean force coefficients are the mean forces over their product, with the signs of C02. -/
theorem C47_coefficients (hp : p.Made) (hs : Reached p s) (h : s.run pres sl = .ok s') (hdt : 0 < p.deltaTime)
    (hP : 0 < p.maxPeriod) (i : ℕ) (hi : i < (p.airplanesAt 0).length) (q S : ℝ)
    (hq : ∀ k, p.firstAveragingStep.toNat ≤ k → k < p.numSteps →
      0.5 * (p.operatingPointAt k).density * (p.operatingPointAt k).velocity ^ 2 = q)
    (hS : ∀ k a, p.firstAveragingStep.toNat ≤ k → k < p.numSteps → (p.airplanesAt k)[i]? = some a → a.sRef = S) :
    ∃ m c : V3, s'.finalMean.forces[s.finalMean.forces.length + i]? = some m ∧
      s'.finalMean.forceCoefficients[s.finalMean.forceCoefficients.length + i]? = some c ∧
      c = ⟨-m.x / (q * S), m.y / (q * S), -m.z / (q * S)⟩ := by
  obtain ⟨hlt, _, hall⟩ := C47_periodic hp hs h hdt hP
  obtain ⟨_, _, h1⟩ := hall _ (List.mem_cons_self ..)
  obtain ⟨_, _, h2⟩ := hall _ (List.mem_cons_of_mem _ (List.mem_cons_self ..))
  obtain ⟨m, _, L, hm, _, hL, hmc⟩ := h1 i hi
  obtain ⟨c, _, L', hc, _, hL', hcc⟩ := h2 i hi
  refine ⟨m, c, hm, hc, ?_⟩
  have hn := hs.steps hp
  obtain ⟨w1, w2, w3, _⟩ := hp.window hn hdt hP.le
  have hN : ((p.numSteps - p.firstAveragingStep.toNat : ℕ) : ℝ) ≠ 0 := by
    have : 0 < p.numSteps - p.firstAveragingStep.toNat := Nat.sub_pos_of_lt hlt
    exact_mod_cast this.ne'
  have hcoef : ∀ k ∈ Ico p.firstAveragingStep.toNat p.numSteps, (L' k).forceCoefficients
      = ⟨-(L k).forceWind.x / (q * S), (L k).forceWind.y / (q * S), -(L k).forceWind.z / (q * S)⟩ := by
    intro k hk
    obtain ⟨k1, k2⟩ := mem_Ico.mp hk
    have hil : i < (p.airplanesAt k).length := by
      have := congrArg List.length (hp.regular.same k k2)
      simp only [layout, List.length_map] at this
      omega
    obtain ⟨A, P, hA, _, _, _, hf, _⟩ := C37_unsteady hp hs h k k2 (by omega) i _ (List.getElem?_eq_getElem hil)
    have e1 := hL k k1 k2
    have e2 := hL' k k1 k2
    rw [hA] at e1 e2
    rw [← Option.some.inj e1, ← Option.some.inj e2, hf, hq k k1 k2, hS k _ k1 k2 (List.getElem?_eq_getElem hil)]
  have cx := (hcc V3.x (by simp)).1
  have cy := (hcc V3.y (by simp)).1
  have cz := (hcc V3.z (by simp)).1
  have mx := (hmc V3.x (by simp)).1
  have my := (hmc V3.y (by simp)).1
  have mz := (hmc V3.z (by simp)).1
  simp only at cx cy cz mx my mz
  rw [Finset.sum_congr rfl fun k hk => by rw [hcoef k hk]] at cx cy cz
  simp only at cx cy cz
  rw [← Finset.sum_div, Finset.sum_neg_distrib, ← mx] at cx
  rw [← Finset.sum_div, ← my] at cy
  rw [← Finset.sum_div, Finset.sum_neg_distrib, ← mz] at cz
  ext
  · apply mul_left_cancel₀ hN
    rw [cx]; ring
  · apply mul_left_cancel₀ hN
    rw [cy]; ring
  · apply mul_left_cancel₀ hN
    rw [cz]; ring

/-- C47: with constant dynamic pressure and reference lengths, the final mean moment coefficients are the final mean
moments over `q s_ref b_ref`, `q s_ref c_ref` and `q s_ref b_ref`. -/
theorem C47_moment_coefficients (hp : p.Made) (hs : Reached p s) (h : s.run pres sl = .ok s') (hdt : 0 < p.deltaTime)
    (hP : 0 < p.maxPeriod) (i : ℕ) (hi : i < (p.airplanesAt 0).length) (q S B C : ℝ)
    (hq : ∀ k, p.firstAveragingStep.toNat ≤ k → k < p.numSteps →
      0.5 * (p.operatingPointAt k).density * (p.operatingPointAt k).velocity ^ 2 = q)
    (hS : ∀ k a, p.firstAveragingStep.toNat ≤ k → k < p.numSteps → (p.airplanesAt k)[i]? = some a →
      a.sRef = S ∧ a.bRef = B ∧ a.cRef = C) :
    ∃ m c : V3, s'.finalMean.moments[s.finalMean.moments.length + i]? = some m ∧
      s'.finalMean.momentCoefficients[s.finalMean.momentCoefficients.length + i]? = some c ∧
      c = ⟨m.x / (q * S * B), m.y / (q * S * C), m.z / (q * S * B)⟩ := by
  obtain ⟨hlt, _, hall⟩ := C47_periodic hp hs h hdt hP
  obtain ⟨_, _, h1⟩ := hall (ResultLists.moments, AirplaneLoads.momentWind) (by simp [loadQuantities])
  obtain ⟨_, _, h2⟩ := hall (ResultLists.momentCoefficients, AirplaneLoads.momentCoefficients)
    (by simp [loadQuantities])
  obtain ⟨m, _, L, hm, _, hL, hmc⟩ := h1 i hi
  obtain ⟨c, _, L', hc, _, hL', hcc⟩ := h2 i hi
  refine ⟨m, c, hm, hc, ?_⟩
  have hn := hs.steps hp
  obtain ⟨w1, w2, w3, _⟩ := hp.window hn hdt hP.le
  have hN : ((p.numSteps - p.firstAveragingStep.toNat : ℕ) : ℝ) ≠ 0 := by
    have : 0 < p.numSteps - p.firstAveragingStep.toNat := Nat.sub_pos_of_lt hlt
    exact_mod_cast this.ne'
  have hcoef : ∀ k ∈ Ico p.firstAveragingStep.toNat p.numSteps, (L' k).momentCoefficients
      = ⟨(L k).momentWind.x / (q * S * B), (L k).momentWind.y / (q * S * C), (L k).momentWind.z / (q * S * B)⟩ := by
    intro k hk
    obtain ⟨k1, k2⟩ := mem_Ico.mp hk
    have hil : i < (p.airplanesAt k).length := by
      have := congrArg List.length (hp.regular.same k k2)
      simp only [layout, List.length_map] at this
      omega
    obtain ⟨A, P, hA, _, _, _, _, hf⟩ := C37_unsteady hp hs h k k2 (by omega) i _ (List.getElem?_eq_getElem hil)
    obtain ⟨r1, r2, r3⟩ := hS k _ k1 k2 (List.getElem?_eq_getElem hil)
    have e1 := hL k k1 k2
    have e2 := hL' k k1 k2
    rw [hA] at e1 e2
    rw [← Option.some.inj e1, ← Option.some.inj e2, hf, hq k k1 k2, r1, r2, r3]
  have cx := (hcc V3.x (by simp)).1
  have cy := (hcc V3.y (by simp)).1
  have cz := (hcc V3.z (by simp)).1
  have mx := (hmc V3.x (by simp)).1
  have my := (hmc V3.y (by simp)).1
  have mz := (hmc V3.z (by simp)).1
  simp only at cx cy cz mx my mz
  rw [Finset.sum_congr rfl fun k hk => by rw [hcoef k hk]] at cx cy cz
  simp only at cx cy cz
  rw [← Finset.sum_div, ← mx] at cx
  rw [← Finset.sum_div, ← my] at cy
  rw [← Finset.sum_div, ← mz] at cz
  ext
  · apply mul_left_cancel₀ hN
    rw [cx]; ring
  · apply mul_left_cancel₀ hN
    rw [cy]; ring
  · apply mul_left_cancel₀ hN
    rw [cz]; ring

end Ptera
