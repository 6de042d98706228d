import Verif.Spec.Waves
import Verif.Lemmas.AirfoilLemmas
import Verif.Lemmas.Lists

/-!
# Property C26: the oscillation generators

Specification: `sineWave A T k t` and `triangleWave A T k t` are functions of time. The triangle wave is described by
its values on one period and its periodicity.
-/

namespace Ptera

noncomputable section

theorem stepTimes_map (n : ℕ) (dt : ℝ) (f : ℝ → ℝ) : Samples ((stepTimes n dt).map f) n dt f := by
  refine ⟨by simp [stepTimes, linspace_length], ?_⟩
  intro i hi
  unfold stepTimes
  rw [List.getElem?_map, linspace_getElem? _ _ _ _ _ hi]
  have hn : (n : ℝ) ≠ 0 := by have : 0 < n := by omega
                              exact_mod_cast this.ne'
  simp only [Option.map_some, Bool.false_eq_true, if_false, sub_zero, zero_add]
  congr 2
  field_simp

theorem Samples.congr {l : List ℝ} {n : ℕ} {dt : ℝ} {f g : ℝ → ℝ} (h : Samples l n dt f) (hfg : ∀ t, f t = g t) :
    Samples l n dt g := ⟨h.1, fun i hi => by rw [h.2 i hi, hfg]⟩

theorem constList_samples (n : ℕ) (v dt : ℝ) : Samples (constList n v) n dt fun _ => v := by
  refine ⟨by simp [constList], fun i hi => ?_⟩
  simp [constList, hi]

/-- C26: zero amplitude or zero period gives the constant base value. -/
theorem C26_constant (A T k : ℝ) (n : ℕ) (dt : ℝ) (f : ℝ → ℝ) (h : A = 0 ∨ T = 0) :
    Samples (oscillatingSinspace A T k n dt) n dt (fun _ => k) ∧
    Samples (oscillatingLinspace A T k n dt) n dt (fun _ => k) ∧
    Samples (oscillatingCustomspace A T k n dt f) n dt (fun _ => k) := by
  unfold oscillatingSinspace oscillatingLinspace oscillatingCustomspace
  rw [if_pos h, if_pos h, if_pos h]
  exact ⟨constList_samples n k dt, constList_samples n k dt, constList_samples n k dt⟩

/-- C26: the sine generator samples the sine wave. (The value at a step depends on the time of the step only.) -/
theorem C26_sine (A T k : ℝ) (n : ℕ) (dt : ℝ) (hT : T ≠ 0) :
    Samples (oscillatingSinspace A T k n dt) n dt (sineWave A T k) := by
  by_cases h : A = 0 ∨ T = 0
  · have hA : A = 0 := h.resolve_right hT
    exact (C26_constant A T k n dt id h).1.congr fun t => by simp [sineWave, hA]
  · unfold oscillatingSinspace
    rw [if_neg h]
    refine (stepTimes_map n dt _).congr fun t => ?_
    simp only [sineWave, sub_zero]
    rw [show 2 * Real.pi / T * t = 2 * Real.pi * t / T by ring]; ring

/-- C26: the custom generator samples the scaled custom function. -/
theorem C26_custom (A T k : ℝ) (n : ℕ) (dt : ℝ) (f : ℝ → ℝ) (hA : A ≠ 0) (hT : T ≠ 0) :
    Samples (oscillatingCustomspace A T k n dt f) n dt (fun t => k + A * f (2 * Real.pi * t / T)) := by
  unfold oscillatingCustomspace
  rw [if_neg (by push Not; exact ⟨hA, hT⟩)]
  refine (stepTimes_map n dt _).congr fun t => ?_
  simp only [sub_zero]
  rw [show 2 * Real.pi / T * t = 2 * Real.pi * t / T by ring]; ring

theorem sawtooth_periodic (t : ℝ) : sawtooth (t + 2 * Real.pi) = sawtooth t := by
  have hpi : (2 * Real.pi) ≠ 0 := by positivity
  have h : (t + 2 * Real.pi) / (2 * Real.pi) = t / (2 * Real.pi) + 1 := by field_simp
  unfold sawtooth
  rw [h, Int.floor_add_one]
  have e : t + 2 * Real.pi - 2 * Real.pi * ((⌊t / (2 * Real.pi)⌋ + 1 : ℤ) : ℝ)
      = t - 2 * Real.pi * (⌊t / (2 * Real.pi)⌋ : ℝ) := by push_cast; ring
  simp only [e]

theorem sawtooth_first (t : ℝ) (h0 : 0 ≤ t) (h1 : t ≤ Real.pi) : sawtooth t = 2 * t / Real.pi - 1 := by
  have hpi := Real.pi_pos
  have hf : ⌊t / (2 * Real.pi)⌋ = 0 := by
    rw [Int.floor_eq_iff]; constructor
    · simp; positivity
    · simp; rw [div_lt_one (by positivity)]; linarith
  unfold sawtooth
  simp only [hf, Int.cast_zero, mul_zero, sub_zero]
  split_ifs with h
  · field_simp; ring
  · push Not at h
    have : t = Real.pi := by linarith
    subst this
    field_simp; norm_num

theorem sawtooth_second (t : ℝ) (h0 : Real.pi ≤ t) (h1 : t < 2 * Real.pi) : sawtooth t = 3 - 2 * t / Real.pi := by
  have hpi := Real.pi_pos
  have hf : ⌊t / (2 * Real.pi)⌋ = 0 := by
    rw [Int.floor_eq_iff]; constructor
    · simp; exact div_nonneg (by linarith) (by positivity)
    · simp; rw [div_lt_one (by positivity)]; linarith
  unfold sawtooth
  simp only [hf, Int.cast_zero, mul_zero, sub_zero]
  rw [if_neg (by push Not; linarith)]
  field_simp; norm_num; ring

theorem sawtooth_bounds (t : ℝ) : -1 ≤ sawtooth t ∧ sawtooth t ≤ 1 := by
  have hpi := Real.pi_pos
  set m := t - 2 * Real.pi * (⌊t / (2 * Real.pi)⌋ : ℝ) with hm
  have hm0 : 0 ≤ m := by
    have := Int.floor_le (t / (2 * Real.pi))
    rw [le_div_iff₀ (by positivity)] at this
    rw [hm]; linarith
  have hm1 : m < 2 * Real.pi := by
    have := Int.lt_floor_add_one (t / (2 * Real.pi))
    rw [div_lt_iff₀ (by positivity)] at this
    rw [hm]; linarith
  have e : sawtooth t = sawtooth m := by
    have hf : ⌊m / (2 * Real.pi)⌋ = 0 := by
      rw [Int.floor_eq_iff]; constructor
      · simp; positivity
      · simp; rw [div_lt_one (by positivity)]; linarith
    unfold sawtooth
    simp only [hf, Int.cast_zero, mul_zero, sub_zero, ← hm]
  rw [e]
  rcases le_total m Real.pi with h | h
  · rw [sawtooth_first m hm0 h]
    have a : 0 ≤ 2 * m / Real.pi := by positivity
    have b : 2 * m / Real.pi ≤ 2 := by rw [div_le_iff₀ hpi]; linarith
    constructor <;> linarith
  · rw [sawtooth_second m h hm1]
    have a : 2 ≤ 2 * m / Real.pi := by rw [le_div_iff₀ hpi]; linarith
    have b : 2 * m / Real.pi ≤ 4 := by rw [div_le_iff₀ hpi]; linarith
    constructor <;> linarith

/-- C26: the uniform generator samples the triangle wave. -/
theorem C26_uniform (A T k : ℝ) (n : ℕ) (dt : ℝ) (hT : 0 < T) :
    ∃ w, IsTriangleWave w A T k ∧ Samples (oscillatingLinspace A T k n dt) n dt w ∧
      ∀ t, |w t - k| ≤ |A| := by
  have hpi := Real.pi_pos
  have hT' : T ≠ 0 := hT.ne'
  refine ⟨fun t => A * sawtooth (2 * Real.pi / T * t + Real.pi / 2) + k, ⟨?_, ?_, ?_, ?_⟩, ?_, ?_⟩
  · intro t
    have : 2 * Real.pi / T * (t + T) + Real.pi / 2 = (2 * Real.pi / T * t + Real.pi / 2) + 2 * Real.pi := by
      field_simp; ring
    simp only [this, sawtooth_periodic]
  · intro t h0 h1
    have hb : 2 * Real.pi / T * t ≤ Real.pi / 2 := by
      rw [div_mul_eq_mul_div, div_le_iff₀ hT]; nlinarith
    have hb0 : 0 ≤ 2 * Real.pi / T * t := by positivity
    show A * sawtooth _ + k = _
    rw [sawtooth_first _ (by linarith) (by linarith)]
    field_simp; ring
  · intro t h0 h1
    have hb0 : Real.pi / 2 ≤ 2 * Real.pi / T * t := by
      rw [div_mul_eq_mul_div, le_div_iff₀ hT]; nlinarith
    have hb : 2 * Real.pi / T * t ≤ 3 * Real.pi / 2 := by
      rw [div_mul_eq_mul_div, div_le_iff₀ hT]; nlinarith
    show A * sawtooth _ + k = _
    rcases lt_or_eq_of_le hb with hlt | heq
    · rw [sawtooth_second _ (by linarith) (by linarith)]
      field_simp; ring
    · rw [heq, show 3 * Real.pi / 2 + Real.pi / 2 = 0 + 2 * Real.pi by ring, sawtooth_periodic,
        sawtooth_first 0 le_rfl hpi.le]
      have : t = 3 * T / 4 := by field_simp at heq; linarith
      subst this
      field_simp; ring
  · intro t h0 h1
    have hb0 : 3 * Real.pi / 2 ≤ 2 * Real.pi / T * t := by
      rw [div_mul_eq_mul_div, le_div_iff₀ hT]; nlinarith
    have hb : 2 * Real.pi / T * t ≤ 2 * Real.pi := by
      rw [div_mul_eq_mul_div, div_le_iff₀ hT]; nlinarith
    show A * sawtooth _ + k = _
    rw [show 2 * Real.pi / T * t + Real.pi / 2 = (2 * Real.pi / T * t - 3 * Real.pi / 2) + 2 * Real.pi by ring,
      sawtooth_periodic, sawtooth_first _ (by linarith) (by linarith)]
    field_simp; ring
  · by_cases h : A = 0 ∨ T = 0
    · have hA : A = 0 := h.resolve_right hT'
      exact (C26_constant A T k n dt id h).2.1.congr fun t => by simp [hA]
    · unfold oscillatingLinspace
      rw [if_neg h]
      exact stepTimes_map n dt _
  · intro t
    have := sawtooth_bounds (2 * Real.pi / T * t + Real.pi / 2)
    simp only [add_sub_cancel_right, abs_mul]
    exact mul_le_of_le_one_right (abs_nonneg _) (abs_le.mpr this)

/-- C26: both waves start at the base value, so the first value of the generators is the base value. -/
theorem C26_starts_at_base (A T k : ℝ) (n : ℕ) (dt : ℝ) (hn : 0 < n) (hT : 0 ≤ T) :
    (oscillatingSinspace A T k n dt)[0]? = some k ∧ (oscillatingLinspace A T k n dt)[0]? = some k := by
  rcases eq_or_lt_of_le hT with h | h
  · obtain ⟨h1, h2, _⟩ := C26_constant A T k n dt id (Or.inr h.symm)
    exact ⟨h1.2 0 hn, h2.2 0 hn⟩
  · obtain ⟨w, hw, hs, _⟩ := C26_uniform A T k n dt h
    have h1 := (C26_sine A T k n dt h.ne').2 0 hn
    have h2 := hs.2 0 hn
    have hz : w 0 = k := by rw [hw.rising 0 le_rfl (by positivity)]; simp
    simp only [Nat.cast_zero, zero_mul, hz] at h1 h2
    exact ⟨by rw [h1]; simp [sineWave], h2⟩

/-- C26: every value stays within the amplitude of the base value; the custom generator within the amplitude times the
bound of the custom function. -/
theorem C26_bounded (A T k : ℝ) (n : ℕ) (dt : ℝ) (f : ℝ → ℝ) (B : ℝ) (hf : ∀ t, |f t| ≤ B) (hT : 0 ≤ T) :
    (∀ v ∈ oscillatingSinspace A T k n dt, |v - k| ≤ |A|) ∧
    (∀ v ∈ oscillatingLinspace A T k n dt, |v - k| ≤ |A|) ∧
    (∀ v ∈ oscillatingCustomspace A T k n dt f, |v - k| ≤ |A| * B) := by
  have key : ∀ (l : List ℝ) (w : ℝ → ℝ) (c : ℝ), Samples l n dt w → (∀ t, |w t - k| ≤ c) → ∀ v ∈ l, |v - k| ≤ c := by
    intro l w c hs hb v hv
    obtain ⟨i, hi⟩ := List.mem_iff_getElem?.mp hv
    have hin : i < n := by rw [← hs.1]; exact (List.getElem?_eq_some_iff.mp hi).1
    rw [hs.2 i hin] at hi
    rw [← Option.some.inj hi]; exact hb _
  have hB : 0 ≤ B := le_trans (abs_nonneg _) (hf 0)
  by_cases h : A = 0 ∨ T = 0
  · obtain ⟨h1, h2, h3⟩ := C26_constant A T k n dt f h
    refine ⟨key _ _ _ h1 ?_, key _ _ _ h2 ?_, key _ _ _ h3 ?_⟩ <;> intro t <;> simp
    positivity
  · push Not at h
    have hT' : 0 < T := lt_of_le_of_ne hT (Ne.symm h.2)
    obtain ⟨w, hw, hs, hb⟩ := C26_uniform A T k n dt hT'
    refine ⟨key _ _ _ (C26_sine A T k n dt h.2) ?_, key _ _ _ hs hb, key _ _ _ (C26_custom A T k n dt f h.1 h.2) ?_⟩
    · intro t
      simp only [sineWave, add_sub_cancel_left, abs_mul]
      exact mul_le_of_le_one_right (abs_nonneg _) (Real.abs_sin_le_one _)
    · intro t
      simp only [add_sub_cancel_left, abs_mul]
      exact mul_le_mul_of_nonneg_left (hf _) (abs_nonneg _)

/-- C26: values a period apart are equal (if a whole number of steps makes a period). -/
theorem C26_periodic (A T k : ℝ) (n : ℕ) (dt : ℝ) (f : ℝ → ℝ) (hf : ∀ t, f (t + 2 * Real.pi) = f t) (hT : 0 < T)
    (i j : ℕ) (hi : i < n) (hj : j < n) (hij : (j : ℝ) * dt = i * dt + T) :
    (oscillatingSinspace A T k n dt)[j]? = (oscillatingSinspace A T k n dt)[i]? ∧
    (oscillatingLinspace A T k n dt)[j]? = (oscillatingLinspace A T k n dt)[i]? ∧
    (oscillatingCustomspace A T k n dt f)[j]? = (oscillatingCustomspace A T k n dt f)[i]? := by
  have hs := C26_sine A T k n dt hT.ne'
  obtain ⟨w, hw, hu, _⟩ := C26_uniform A T k n dt hT
  have e : 2 * Real.pi * (i * dt + T) / T = 2 * Real.pi * (i * dt) / T + 2 * Real.pi := by
    field_simp
  refine ⟨?_, ?_, ?_⟩
  · rw [hs.2 i hi, hs.2 j hj, hij]
    simp only [sineWave, e, Real.sin_add_two_pi]
  · rw [hu.2 i hi, hu.2 j hj, hij, hw.periodic]
  · by_cases h : A = 0 ∨ T = 0
    · obtain ⟨_, _, h3⟩ := C26_constant A T k n dt f h
      rw [h3.2 i hi, h3.2 j hj]
    · push Not at h
      have hc := C26_custom A T k n dt f h.1 h.2
      rw [hc.2 i hi, hc.2 j hj, hij]
      simp only [e, hf]

/-- Non-vacuity: a period of four steps of a quarter second. -/
example : ((4 : ℕ) : ℝ) * (1 / 4) = (0 : ℕ) * (1 / 4) + 1 ∧ ∀ t, Real.cos (t + 2 * Real.pi) = Real.cos t := by
  constructor
  · norm_num
  · intro t; exact Real.cos_add_two_pi t

end

end Ptera
