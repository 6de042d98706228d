import Mathlib.Tactic.FieldSimp
import Mathlib.Tactic.Linarith
import Mathlib.Tactic.LinearCombination
import Mathlib.Tactic.Positivity
import Mathlib.Data.Real.Basic
import Mathlib.Data.Sign.Basic
import Mathlib.Algebra.Order.Ring.Abs
import Verif.Model.Pchip

/-! # Facts about the piecewise cubic interpolation -/

namespace Ptera
namespace Pchip

/-- A derivative between 0 and three times the slope. -/
def Fits (m d : ℝ) : Prop := (0 ≤ m → 0 ≤ d ∧ d ≤ 3 * m) ∧ (m ≤ 0 → 3 * m ≤ d ∧ d ≤ 0)

theorem Fits.neg {m d : ℝ} (h : Fits (-m) (-d)) : Fits m d := by
  obtain ⟨h1, h2⟩ := h
  constructor
  · intro hm
    have := h2 (by linarith)
    constructor <;> linarith [this.1, this.2]
  · intro hm
    have := h1 (by linarith)
    constructor <;> linarith [this.1, this.2]

theorem fits_zero (m : ℝ) : Fits m 0 := ⟨fun h => ⟨le_rfl, by linarith⟩, fun h => ⟨by linarith, le_rfl⟩⟩

theorem fits_self (m : ℝ) : Fits m m := ⟨fun h => ⟨h, by linarith⟩, fun h => ⟨by linarith, h⟩⟩

theorem fits_of_pos {m d : ℝ} (hm : 0 < m) (h0 : 0 ≤ d) (h3 : d ≤ 3 * m) : Fits m d :=
  ⟨fun _ => ⟨h0, h3⟩, fun h => absurd h (by linarith)⟩

/-! ## Scaling of the values -/

theorem sign_scaled {c : ℝ} (hc : c ≠ 0) (a b : ℝ) :
    SignType.sign (c * a) ≠ SignType.sign (c * b) ↔ SignType.sign a ≠ SignType.sign b := by
  rw [sign_mul, sign_mul, not_iff_not]
  have : SignType.sign c ≠ 0 := by rwa [Ne, sign_eq_zero_iff]
  generalize SignType.sign c = s at *
  generalize SignType.sign a = t at *
  generalize SignType.sign b = u at *
  revert s t u
  decide

theorem innerDerivative_scaled (c h0 h1 m0 m1 : ℝ) :
    innerDerivative h0 h1 (c * m0) (c * m1) = c * innerDerivative h0 h1 m0 m1 := by
  by_cases hc : c = 0
  · subst hc
    simp [innerDerivative]
  · unfold innerDerivative
    by_cases h : SignType.sign m1 ≠ SignType.sign m0 ∨ m1 = 0 ∨ m0 = 0
    · rw [if_pos h, if_pos, mul_zero]
      rwa [sign_scaled hc, mul_eq_zero_iff_left' hc, mul_eq_zero_iff_left' hc]
    · rw [if_neg h, if_neg]
      · push Not at h
        obtain ⟨-, h1, h0⟩ := h
        rw [mul_comm c m0, mul_comm c m1, ← div_div, ← div_div, ← add_div, div_right_comm _ c, one_div_div]
        rw [mul_one_div]
      · rwa [sign_scaled hc, mul_eq_zero_iff_left' hc, mul_eq_zero_iff_left' hc]
where
  mul_eq_zero_iff_left' {c : ℝ} (hc : c ≠ 0) {a : ℝ} : c * a = 0 ↔ a = 0 := by simp [hc]

theorem edgeDerivative_scaled (c h0 h1 m0 m1 : ℝ) :
    edgeDerivative h0 h1 (c * m0) (c * m1) = c * edgeDerivative h0 h1 m0 m1 := by
  have hd : ((2 * h0 + h1) * (c * m0) - h0 * (c * m1)) / (h0 + h1) = c * (((2 * h0 + h1) * m0 - h0 * m1) / (h0 + h1)) := by
    ring
  by_cases hc : c = 0
  · subst hc
    simp [edgeDerivative]
  · unfold edgeDerivative
    rw [hd]
    generalize ((2 * h0 + h1) * m0 - h0 * m1) / (h0 + h1) = d
    have e1 := sign_scaled hc d m0
    have e2 := sign_scaled hc m0 m1
    have e3 : 3 * |c * m0| < |c * d| ↔ 3 * |m0| < |d| := by
      rw [abs_mul, abs_mul, mul_left_comm, mul_lt_mul_iff_right₀ (abs_pos.mpr hc)]
    by_cases h1 : SignType.sign d ≠ SignType.sign m0
    · rw [if_pos h1, if_pos (e1.mpr h1), mul_zero]
    · rw [if_neg h1, if_neg (fun h => h1 (e1.mp h))]
      by_cases h2 : SignType.sign m0 ≠ SignType.sign m1 ∧ 3 * |m0| < |d|
      · rw [if_pos h2, if_pos ⟨e2.mpr h2.1, e3.mpr h2.2⟩]; ring
      · rw [if_neg h2, if_neg (fun h => h2 ⟨e2.mp h.1, e3.mp h.2⟩)]

theorem slope_scaled (c : ℝ) (x y : ℕ → ℝ) (i : ℕ) : slope x (fun i => c * y i) i = c * slope x y i := by
  unfold slope; ring

theorem derivative_scaled (c : ℝ) (n : ℕ) (x y : ℕ → ℝ) (k : ℕ) :
    derivative n x (fun i => c * y i) k = c * derivative n x y k := by
  unfold derivative
  simp only [slope_scaled, innerDerivative_scaled, edgeDerivative_scaled]
  split_ifs <;> rfl

/-- The interpolant of scaled values is the scaled interpolant. -/
theorem value_scaled (c : ℝ) (n : ℕ) (x y : ℕ → ℝ) (q : ℝ) :
    value n x (fun i => c * y i) q = c * value n x y q := by
  unfold value cubic
  simp only [slope_scaled, derivative_scaled]
  ring

/-! ## The derivatives fit the slopes on both sides -/

theorem innerDerivative_neg (h0 h1 m0 m1 : ℝ) :
    innerDerivative h0 h1 (-m0) (-m1) = -innerDerivative h0 h1 m0 m1 := by
  have := innerDerivative_scaled (-1) h0 h1 m0 m1
  simpa using this

theorem edgeDerivative_neg (h0 h1 m0 m1 : ℝ) : edgeDerivative h0 h1 (-m0) (-m1) = -edgeDerivative h0 h1 m0 m1 := by
  have := edgeDerivative_scaled (-1) h0 h1 m0 m1
  simpa using this

theorem innerDerivative_pos {h0 h1 m0 m1 : ℝ} (hh0 : 0 < h0) (hh1 : 0 < h1) (h0' : 0 < m0) (h1' : 0 < m1) :
    0 ≤ innerDerivative h0 h1 m0 m1 ∧ innerDerivative h0 h1 m0 m1 ≤ 3 * m0 ∧ innerDerivative h0 h1 m0 m1 ≤ 3 * m1 := by
  unfold innerDerivative
  rw [if_neg (by simp [sign_pos h0', sign_pos h1', h0'.ne', h1'.ne'])]
  have hw1 : 0 < 2 * h1 + h0 := by linarith
  have hw2 : 0 < h1 + 2 * h0 := by linarith
  have ha : 0 < (2 * h1 + h0) / m0 := div_pos hw1 h0'
  have hb : 0 < (h1 + 2 * h0) / m1 := div_pos hw2 h1'
  rw [one_div_div]
  refine ⟨by positivity, ?_, ?_⟩
  · rw [div_le_iff₀ (by positivity)]
    have : 3 * m0 * ((2 * h1 + h0) / m0 + (h1 + 2 * h0) / m1) = 3 * (2 * h1 + h0) + 3 * m0 * ((h1 + 2 * h0) / m1) := by
      field_simp
    rw [this]
    have : 0 < 3 * m0 * ((h1 + 2 * h0) / m1) := by positivity
    linarith
  · rw [div_le_iff₀ (by positivity)]
    have : 3 * m1 * ((2 * h1 + h0) / m0 + (h1 + 2 * h0) / m1) = 3 * m1 * ((2 * h1 + h0) / m0) + 3 * (h1 + 2 * h0) := by
      field_simp
    rw [this]
    have : 0 < 3 * m1 * ((2 * h1 + h0) / m0) := by positivity
    linarith

theorem innerDerivative_fits {h0 h1 : ℝ} (hh0 : 0 < h0) (hh1 : 0 < h1) (m0 m1 : ℝ) :
    Fits m0 (innerDerivative h0 h1 m0 m1) ∧ Fits m1 (innerDerivative h0 h1 m0 m1) := by
  by_cases hz : SignType.sign m1 ≠ SignType.sign m0 ∨ m1 = 0 ∨ m0 = 0
  · unfold innerDerivative
    rw [if_pos hz]
    exact ⟨fits_zero _, fits_zero _⟩
  · push Not at hz
    obtain ⟨hs, h1, h0⟩ := hz
    rcases lt_or_gt_of_ne h0 with hn | hp
    · have hn1 : m1 < 0 := by rw [sign_neg hn] at hs; exact sign_eq_neg_one_iff.mp hs
      obtain ⟨a, b, c⟩ := innerDerivative_pos hh0 hh1 (neg_pos.mpr hn) (neg_pos.mpr hn1)
      rw [innerDerivative_neg] at a b c
      constructor
      · apply Fits.neg; exact fits_of_pos (neg_pos.mpr hn) a b
      · apply Fits.neg; exact fits_of_pos (neg_pos.mpr hn1) a c
    · have hp1 : 0 < m1 := by rw [sign_pos hp] at hs; exact sign_eq_one_iff.mp hs
      obtain ⟨a, b, c⟩ := innerDerivative_pos hh0 hh1 hp hp1
      exact ⟨fits_of_pos hp a b, fits_of_pos hp1 a c⟩

theorem edgeDerivative_pos {h0 h1 m0 : ℝ} (hh0 : 0 < h0) (hh1 : 0 < h1) (m1 : ℝ) (h0' : 0 < m0) :
    Fits m0 (edgeDerivative h0 h1 m0 m1) := by
  unfold edgeDerivative
  generalize hd : ((2 * h0 + h1) * m0 - h0 * m1) / (h0 + h1) = d
  by_cases h1' : SignType.sign d ≠ SignType.sign m0
  · rw [if_pos h1']; exact fits_zero _
  · rw [if_neg h1']
    have hdpos : 0 < d := by
      rw [not_not, sign_pos h0'] at h1'
      exact sign_eq_one_iff.mp h1'
    by_cases h2 : SignType.sign m0 ≠ SignType.sign m1 ∧ 3 * |m0| < |d|
    · rw [if_pos h2]; exact fits_of_pos h0' (by linarith) le_rfl
    · rw [if_neg h2]
      refine fits_of_pos h0' hdpos.le ?_
      by_cases hs : SignType.sign m0 ≠ SignType.sign m1
      · have := not_lt.mp (fun h => h2 ⟨hs, h⟩)
        rwa [abs_of_pos hdpos, abs_of_pos h0'] at this
      · have hm1 : 0 < m1 := by
          rw [not_not, sign_pos h0'] at hs
          exact sign_eq_one_iff.mp hs.symm
        rw [← hd, div_le_iff₀ (by linarith)]
        nlinarith [mul_pos hh0 hm1, mul_pos hh1 h0', mul_pos hh0 h0']

theorem edgeDerivative_fits {h0 h1 : ℝ} (hh0 : 0 < h0) (hh1 : 0 < h1) (m0 m1 : ℝ) :
    Fits m0 (edgeDerivative h0 h1 m0 m1) := by
  rcases lt_trichotomy m0 0 with hn | rfl | hp
  · apply Fits.neg
    rw [← edgeDerivative_neg]
    exact edgeDerivative_pos hh0 hh1 _ (neg_pos.mpr hn)
  · have : edgeDerivative h0 h1 0 m1 = 0 := by
      unfold edgeDerivative
      generalize ((2 * h0 + h1) * 0 - h0 * m1) / (h0 + h1) = d
      by_cases h1' : SignType.sign d ≠ SignType.sign (0 : ℝ)
      · rw [if_pos h1']
      · rw [if_neg h1']
        rw [not_not, sign_zero, sign_eq_zero_iff] at h1'
        subst h1'
        simp
    rw [this]
    exact fits_zero _
  · exact edgeDerivative_pos hh0 hh1 _ hp

/-- The derivatives at both ends of a piece fit its slope. -/
theorem derivative_fits {n : ℕ} {x : ℕ → ℝ} (y : ℕ → ℝ) (hx : ∀ i, i + 1 < n → 0 < step x i) {i : ℕ} (hi : i + 1 < n) :
    Fits (slope x y i) (derivative n x y i) ∧ Fits (slope x y i) (derivative n x y (i + 1)) := by
  unfold derivative
  by_cases h2 : n = 2
  · subst h2
    obtain rfl : i = 0 := by omega
    simp only [if_true]
    exact ⟨fits_self _, fits_self _⟩
  · simp only [if_neg h2]
    have hn : 3 ≤ n := by omega
    constructor
    · by_cases h0 : i = 0
      · subst h0
        rw [if_pos rfl]
        exact edgeDerivative_fits (hx 0 (by omega)) (hx 1 (by omega)) _ _
      · rw [if_neg h0, if_neg (by omega)]
        exact (innerDerivative_fits (hx (i - 1) (by omega)) (hx i hi) _ _).2
    · rw [if_neg (by omega)]
      by_cases hl : i + 1 = n - 1
      · rw [if_pos hl]
        have : n - 2 = i := by omega
        rw [this]
        exact edgeDerivative_fits (hx i hi) (hx (n - 3) (by omega)) _ _
      · rw [if_neg hl, Nat.add_sub_cancel]
        exact (innerDerivative_fits (hx i hi) (hx (i + 1) (by omega)) _ _).1

/-! ## The cubics -/

theorem cubic_start (h y0 m d0 d1 : ℝ) : cubic h y0 m d0 d1 0 = y0 := by simp [cubic]

theorem cubic_end {h : ℝ} (_hh : h ≠ 0) (y0 m d0 d1 : ℝ) : cubic h y0 m d0 d1 h = y0 + m * h := by
  unfold cubic; field_simp; ring

theorem cubic_unit {h : ℝ} (_hh : h ≠ 0) (y0 m d0 d1 u : ℝ) :
    cubic h y0 m d0 d1 (h * u)
      = y0 + h * (d0 * (u - 2 * u ^ 2 + u ^ 3) + m * (3 * u ^ 2 - 2 * u ^ 3) + d1 * (u ^ 3 - u ^ 2)) := by
  unfold cubic; field_simp; ring

theorem cubic_monotone_unit {m d0 d1 u v : ℝ} (hm : 0 ≤ m) (h0 : 0 ≤ d0 ∧ d0 ≤ 3 * m) (h1 : 0 ≤ d1 ∧ d1 ≤ 3 * m)
    (hu : 0 ≤ u) (huv : u ≤ v) (hv : v ≤ 1) :
    d0 * (u - 2 * u ^ 2 + u ^ 3) + m * (3 * u ^ 2 - 2 * u ^ 3) + d1 * (u ^ 3 - u ^ 2)
      ≤ d0 * (v - 2 * v ^ 2 + v ^ 3) + m * (3 * v ^ 2 - 2 * v ^ 3) + d1 * (v ^ 3 - v ^ 2) := by
  rcases hm.eq_or_lt with rfl | hm'
  · have e0 : d0 = 0 := le_antisymm (by linarith [h0.2]) h0.1
    have e1 : d1 = 0 := le_antisymm (by linarith [h1.2]) h1.1
    simp [e0, e1]
  · obtain ⟨a, rfl⟩ : ∃ a, d0 = 3 * m * a := ⟨d0 / (3 * m), by field_simp⟩
    obtain ⟨b, rfl⟩ : ∃ b, d1 = 3 * m * b := ⟨d1 / (3 * m), by field_simp⟩
    have ha0 : 0 ≤ a := by
      have := h0.1; by_contra hc; push Not at hc; nlinarith
    have ha1 : a ≤ 1 := by
      have := h0.2; by_contra hc; push Not at hc; nlinarith
    have hb0 : 0 ≤ b := by
      have := h1.1; by_contra hc; push Not at hc; nlinarith
    have hb1 : b ≤ 1 := by
      have := h1.2; by_contra hc; push Not at hc; nlinarith
    have key : ∀ w : ℝ, 3 * m * a * (w - 2 * w ^ 2 + w ^ 3) + m * (3 * w ^ 2 - 2 * w ^ 3) + 3 * m * b * (w ^ 3 - w ^ 2)
        = m * ((1 - a) * (1 - b) * (3 * w ^ 2 - 2 * w ^ 3) + a * (1 - b) * (1 - (1 - w) ^ 3) + (1 - a) * b * w ^ 3
          + a * b * ((1 - (1 - 2 * w) ^ 3) / 2)) := by
      intro w; ring
    rw [key u, key v]
    have hd : 0 ≤ v - u := by linarith
    have k1 : 3 * u ^ 2 - 2 * u ^ 3 ≤ 3 * v ^ 2 - 2 * v ^ 3 := by
      have e : 3 * v ^ 2 - 2 * v ^ 3 - (3 * u ^ 2 - 2 * u ^ 3)
          = (v - u) * (2 * (u * (1 - u)) + 2 * (v * (1 - v)) + u * (1 - v) + v * (1 - u)) := by ring
      have : 0 ≤ (v - u) * (2 * (u * (1 - u)) + 2 * (v * (1 - v)) + u * (1 - v) + v * (1 - u)) := by
        have p1 : 0 ≤ 1 - u := by linarith
        have p2 : 0 ≤ 1 - v := by linarith
        have p3 : 0 ≤ v := by linarith
        positivity
      linarith
    have k2 : 1 - (1 - u) ^ 3 ≤ 1 - (1 - v) ^ 3 := by
      have : (1 - v) ^ 3 ≤ (1 - u) ^ 3 := pow_le_pow_left₀ (by linarith) (by linarith) 3
      linarith
    have k3 : u ^ 3 ≤ v ^ 3 := pow_le_pow_left₀ hu huv 3
    have k4 : (1 - (1 - 2 * u) ^ 3) / 2 ≤ (1 - (1 - 2 * v) ^ 3) / 2 := by
      have e : (1 - (1 - 2 * v) ^ 3) / 2 - (1 - (1 - 2 * u) ^ 3) / 2
          = (v - u) * ((1 - 2 * u + (1 - 2 * v) / 2) ^ 2 + 3 / 4 * (1 - 2 * v) ^ 2) := by ring
      have : 0 ≤ (v - u) * ((1 - 2 * u + (1 - 2 * v) / 2) ^ 2 + 3 / 4 * (1 - 2 * v) ^ 2) := by positivity
      linarith
    have p1 : 0 ≤ 1 - a := by linarith
    have p2 : 0 ≤ 1 - b := by linarith
    apply mul_le_mul_of_nonneg_left _ hm
    gcongr

/-- A cubic whose end derivatives fit its slope rises or falls like the slope. -/
theorem cubic_monotone {h y0 m d0 d1 s t : ℝ} (hh : 0 < h) (h0 : Fits m d0) (h1 : Fits m d1) (hs : 0 ≤ s) (hst : s ≤ t)
    (ht : t ≤ h) :
    (0 ≤ m → cubic h y0 m d0 d1 s ≤ cubic h y0 m d0 d1 t) ∧ (m ≤ 0 → cubic h y0 m d0 d1 t ≤ cubic h y0 m d0 d1 s) := by
  have es : s = h * (s / h) := by field_simp
  have et : t = h * (t / h) := by field_simp
  have hu : 0 ≤ s / h := by positivity
  have huv : s / h ≤ t / h := by gcongr
  have hv : t / h ≤ 1 := by rw [div_le_one hh]; exact ht
  rw [es, et, cubic_unit hh.ne', cubic_unit hh.ne']
  generalize s / h = u at *
  generalize t / h = v at *
  constructor
  · intro hm
    have := cubic_monotone_unit hm (h0.1 hm) (h1.1 hm) hu huv hv
    have := mul_le_mul_of_nonneg_left this hh.le
    linarith
  · intro hm
    obtain ⟨a, b⟩ := h0.2 hm
    obtain ⟨c, d⟩ := h1.2 hm
    have := cubic_monotone_unit (m := -m) (d0 := -d0) (d1 := -d1) (by linarith) ⟨by linarith, by linarith⟩
      ⟨by linarith, by linarith⟩ hu huv hv
    have := mul_le_mul_of_nonneg_left this hh.le
    linarith

/-! ## The interpolant -/

theorem increasing {n : ℕ} {x : ℕ → ℝ} (hx : ∀ i, i + 1 < n → 0 < step x i) : ∀ j i, i < j → j < n → x i < x j := by
  intro j
  induction j with
  | zero => intro i hi; omega
  | succ j ih =>
    intro i hi hj
    have h := hx j hj
    unfold step at h
    rcases Nat.lt_succ_iff_lt_or_eq.mp hi with h' | rfl
    · linarith [ih i h' (by omega)]
    · linarith

/-- On a piece, the interpolant is its cubic. -/
theorem value_on {n : ℕ} {x : ℕ → ℝ} (y : ℕ → ℝ) (hx : ∀ i, i + 1 < n → 0 < step x i) {i : ℕ} (hi : i + 1 < n) {q : ℝ}
    (h1 : x i ≤ q) (h2 : q ≤ x (i + 1)) :
    value n x y q = cubic (step x i) (y i) (slope x y i) (derivative n x y i) (derivative n x y (i + 1)) (q - x i) := by
  rcases h2.lt_or_eq with hlt | rfl
  · have hp : piece n x q = i := by
      unfold piece
      rw [Nat.findGreatest_eq_iff]
      refine ⟨by omega, fun _ => h1, ?_⟩
      intro k hk hk2
      rcases Nat.lt_or_ge (i + 1) k with h | h
      · have := increasing hx k (i + 1) h (by omega)
        exact not_le.mpr (by linarith)
      · obtain rfl : k = i + 1 := by omega
        exact not_le.mpr hlt
    unfold value
    rw [hp]
  · by_cases hl : i + 2 = n
    · have hp : piece n x (x (i + 1)) = i := by
        unfold piece
        rw [Nat.findGreatest_eq_iff]
        exact ⟨by omega, fun _ => h1, fun k hk hk2 => by omega⟩
      unfold value
      rw [hp]
    · have hp : piece n x (x (i + 1)) = i + 1 := by
        unfold piece
        rw [Nat.findGreatest_eq_iff]
        refine ⟨by omega, fun _ => le_rfl, ?_⟩
        intro k hk hk2
        exact not_le.mpr (increasing hx k (i + 1) hk (by omega))
      unfold value
      rw [hp, sub_self, cubic_start, show x (i + 1) - x i = step x i from rfl, cubic_end (hx i hi).ne']
      unfold slope
      rw [div_mul_cancel₀ _ (hx i hi).ne']
      ring

theorem value_node {n : ℕ} {x : ℕ → ℝ} (y : ℕ → ℝ) (hn : 2 ≤ n) (hx : ∀ i, i + 1 < n → 0 < step x i) {i : ℕ}
    (hi : i < n) : value n x y (x i) = y i := by
  by_cases hl : i + 1 < n
  · have := hx i hl
    unfold step at this
    rw [value_on y hx hl le_rfl (by linarith), sub_self, cubic_start]
  · obtain ⟨j, rfl⟩ : ∃ j, i = j + 1 := ⟨i - 1, by omega⟩
    have := hx j hi
    rw [value_on y hx hi (by unfold step at this; linarith) le_rfl, show x (j + 1) - x j = step x j from rfl,
      cubic_end this.ne']
    unfold slope
    rw [div_mul_cancel₀ _ this.ne']
    ring

/-- Between two neighbouring nodes the interpolant rises or falls, as their values do. -/
theorem value_monotone {n : ℕ} {x : ℕ → ℝ} (y : ℕ → ℝ) (hx : ∀ i, i + 1 < n → 0 < step x i) {i : ℕ} (hi : i + 1 < n)
    {q r : ℝ} (h1 : x i ≤ q) (h2 : q ≤ r) (h3 : r ≤ x (i + 1)) :
    (y i ≤ y (i + 1) → value n x y q ≤ value n x y r) ∧ (y (i + 1) ≤ y i → value n x y r ≤ value n x y q) := by
  obtain ⟨f0, f1⟩ := derivative_fits y hx hi
  have hh := hx i hi
  rw [value_on y hx hi h1 (by linarith), value_on y hx hi (by linarith) h3]
  have key := cubic_monotone (y0 := y i) hh f0 f1 (s := q - x i) (t := r - x i) (by linarith) (by linarith)
    (by unfold step; linarith)
  constructor
  · intro h
    exact key.1 (div_nonneg (by linarith) hh.le)
  · intro h
    exact key.2 (div_nonpos_of_nonpos_of_nonneg (by linarith) hh.le)

/-- Between two neighbouring nodes the interpolant stays between their values. -/
theorem value_between {n : ℕ} {x : ℕ → ℝ} (y : ℕ → ℝ) (hn : 2 ≤ n) (hx : ∀ i, i + 1 < n → 0 < step x i) {i : ℕ}
    (hi : i + 1 < n) {q : ℝ} (h1 : x i ≤ q) (h2 : q ≤ x (i + 1)) :
    min (y i) (y (i + 1)) ≤ value n x y q ∧ value n x y q ≤ max (y i) (y (i + 1)) := by
  have a := value_monotone y hx hi le_rfl h1 h2
  have b := value_monotone y hx hi h1 h2 le_rfl
  rw [value_node y hn hx (by omega)] at a
  rw [value_node y hn hx hi] at b
  rcases le_total (y i) (y (i + 1)) with h | h
  · rw [min_eq_left h, max_eq_right h]; exact ⟨a.1 h, b.1 h⟩
  · rw [min_eq_right h, max_eq_left h]; exact ⟨b.2 h, a.2 h⟩

/-- Every point between the first and the last node is on a piece. -/
theorem on_piece {n : ℕ} {x : ℕ → ℝ} (hn : 2 ≤ n) {q : ℝ} (h1 : x 0 ≤ q) (h2 : q ≤ x (n - 1)) :
    ∃ i, i + 1 < n ∧ x i ≤ q ∧ q ≤ x (i + 1) := by
  classical
  have hs : x (Nat.findGreatest (fun i => x i ≤ q) (n - 2)) ≤ q :=
    Nat.findGreatest_spec (P := fun i => x i ≤ q) (Nat.zero_le _) h1
  have hb := Nat.findGreatest_le (P := fun i => x i ≤ q) (n - 2)
  refine ⟨Nat.findGreatest (fun i => x i ≤ q) (n - 2), by omega, hs, ?_⟩
  rcases Nat.lt_or_ge (Nat.findGreatest (fun i => x i ≤ q) (n - 2)) (n - 2) with h | h
  · have := Nat.findGreatest_is_greatest (P := fun i => x i ≤ q) (Nat.lt_succ_self _) (show
      Nat.findGreatest (fun i => x i ≤ q) (n - 2) + 1 ≤ n - 2 by omega)
    exact (not_le.mp this).le
  · rw [show Nat.findGreatest (fun i => x i ≤ q) (n - 2) + 1 = n - 1 by omega]
    exact h2

/-! ## Straight lines -/

theorem innerDerivative_same {h0 h1 : ℝ} (hh0 : 0 < h0) (hh1 : 0 < h1) (m : ℝ) : innerDerivative h0 h1 m m = m := by
  unfold innerDerivative
  by_cases hm : m = 0
  · simp [hm]
  · rw [if_neg (by simp [hm])]
    have : (2 * h1 + h0) + (h1 + 2 * h0) ≠ 0 := by positivity
    rw [← add_div, div_right_comm, div_self this, one_div_one_div]

theorem edgeDerivative_same {h0 h1 : ℝ} (hh0 : 0 < h0) (hh1 : 0 < h1) (m : ℝ) : edgeDerivative h0 h1 m m = m := by
  have : ((2 * h0 + h1) * m - h0 * m) / (h0 + h1) = m := by
    have : h0 + h1 ≠ 0 := by positivity
    field_simp; ring
  unfold edgeDerivative
  rw [this]
  simp

/-- The interpolant of points on a straight line is the line, also beyond the nodes. -/
theorem value_line {n : ℕ} {x y : ℕ → ℝ} (hn : 2 ≤ n) (hx : ∀ i, i + 1 < n → 0 < step x i) {α β : ℝ}
    (hy : ∀ i < n, y i = α + β * x i) (q : ℝ) : value n x y q = α + β * q := by
  have hm : ∀ i, i + 1 < n → slope x y i = β := by
    intro i hi
    unfold slope
    rw [hy i (by omega), hy (i + 1) hi, div_eq_iff (hx i hi).ne']
    unfold step; ring
  have hd : ∀ k < n, derivative n x y k = β := by
    intro k hk
    unfold derivative
    by_cases h2 : n = 2
    · rw [if_pos h2, hm 0 (by omega)]
    · rw [if_neg h2]
      by_cases h0 : k = 0
      · rw [if_pos h0, hm 0 (by omega), hm 1 (by omega), edgeDerivative_same (hx 0 (by omega)) (hx 1 (by omega))]
      · rw [if_neg h0]
        by_cases hl : k = n - 1
        · rw [if_pos hl, hm (n - 2) (by omega), hm (n - 3) (by omega),
            edgeDerivative_same (hx (n - 2) (by omega)) (hx (n - 3) (by omega))]
        · rw [if_neg hl, hm (k - 1) (by omega), hm k (by omega),
            innerDerivative_same (hx (k - 1) (by omega)) (hx k (by omega))]
  have hp : piece n x q ≤ n - 2 := Nat.findGreatest_le _
  unfold value cubic
  rw [hm _ (by omega), hd _ (by omega), hd _ (by omega), hy _ (by omega)]
  ring

end Pchip

/-! ## The interpolator -/

theorem pchip_ok {xs ys : List ℝ} {f : ℝ → ℝ} : pchip xs ys = .ok f ↔
    2 ≤ xs.length ∧ xs.length = ys.length ∧
    (∀ i, i + 1 < xs.length → 0 < Pchip.step (fun i => xs.getD i 0) i) ∧
    f = Pchip.value xs.length (fun i => xs.getD i 0) fun i => ys.getD i 0 := by
  unfold pchip
  by_cases h1 : xs.length < 2
  · rw [if_pos h1]
    constructor
    · intro h; cases h
    · rintro ⟨h, -⟩; omega
  · rw [if_neg h1]
    by_cases h2 : xs.length ≠ ys.length
    · rw [if_pos h2]
      constructor
      · intro h; cases h
      · rintro ⟨-, h, -⟩; exact absurd h h2
    · rw [if_neg h2]
      by_cases h3 : ∃ i, i + 1 < xs.length ∧ xs.getD (i + 1) 0 - xs.getD i 0 ≤ 0
      · rw [if_pos h3]
        constructor
        · intro h; cases h
        · rintro ⟨-, -, h, -⟩
          obtain ⟨i, hi, hle⟩ := h3
          have := h i hi
          unfold Pchip.step at this
          exact absurd hle (not_le.mpr this)
      · rw [if_neg h3]
        push Not at h3
        constructor
        · intro h
          cases h
          exact ⟨by omega, not_ne_iff.mp h2, h3, rfl⟩
        · rintro ⟨-, -, -, rfl⟩
          rfl

theorem pchip_error {xs ys : List ℝ} {e : Err} (h : pchip xs ys = .error e) : e = .valueError := by
  unfold pchip at h
  split_ifs at h <;> (cases h; rfl)

end Ptera
