import Verif.Lemmas.AirfoilLemmas
import Verif.Props.Spacing
import Mathlib.Analysis.SpecialFunctions.Trigonometric.Bounds
import Mathlib.Analysis.Calculus.Deriv.Pow
import Mathlib.Analysis.Calculus.Deriv.Inv
import Mathlib.Analysis.Calculus.Deriv.Slope
import Mathlib.Analysis.SpecialFunctions.Trigonometric.Arctan
import Mathlib.Analysis.Real.Pi.Bounds
import Mathlib.Tactic.IntervalCases

/-!
# Property C24: airfoil outlines

`nacaCamber m p` and `nacaSlope m p` are the textbook camber line of the NACA four-digit series (maximum camber `m`
at the chord fraction `p`) and its slope.
-/

namespace Ptera

open List

noncomputable section

/-! ## Specification -/

open Classical in
/-- The camber line of the NACA four-digit series. -/
def nacaCamber (m p x : ℝ) : ℝ :=
  if x ≤ p then m / p ^ 2 * (2 * p * x - x ^ 2) else m / (1 - p) ^ 2 * ((1 - 2 * p) + 2 * p * x - x ^ 2)

open Classical in
/-- Its slope. -/
def nacaSlope (m p x : ℝ) : ℝ :=
  if x ≤ p then 2 * m / p ^ 2 * (p - x) else 2 * m / (1 - p) ^ 2 * (p - x)

/-- The chordwise station `k` of 100 cosine-spaced stations. -/
def nacaStation (k : ℕ) : ℝ := (1 - Real.cos (Real.pi * k / 99)) / 2

/-- The half thickness of the NACA four-digit series (thickness `t` as a fraction of the chord). -/
def nacaHalfThickness (t x : ℝ) : ℝ :=
  5 * t * (0.2969 * Real.sqrt x - 0.1260 * x - 0.3516 * x ^ 2 + 0.2843 * x ^ 3 - 0.1015 * x ^ 4)

/-! ## The camber line -/

/-- C24: the camber line has the stated slope everywhere, also at the point of maximum camber; it vanishes at both
ends, reaches `m` at `p` with zero slope, and stays between 0 and `m`. -/
theorem C24_camber_line (m p : ℝ) (hm : 0 ≤ m) (hp0 : 0 < p) (hp1 : p < 1) :
    (∀ x, HasDerivAt (nacaCamber m p) (nacaSlope m p x) x) ∧ Continuous (nacaSlope m p) ∧
    nacaCamber m p 0 = 0 ∧ nacaCamber m p 1 = 0 ∧ nacaCamber m p p = m ∧ nacaSlope m p p = 0 ∧
    ∀ x, 0 ≤ x → x ≤ 1 → 0 ≤ nacaCamber m p x ∧ nacaCamber m p x ≤ m := by
  have hp : p ≠ 0 := hp0.ne'
  have hq0 : 0 < 1 - p := by linarith
  have hq : 1 - p ≠ 0 := by linarith
  have d1 : ∀ x, HasDerivAt (fun x => m / p ^ 2 * (2 * p * x - x ^ 2)) (2 * m / p ^ 2 * (p - x)) x := by
    intro x
    have h : HasDerivAt (fun x : ℝ => 2 * p * x - x ^ 2) (2 * p * 1 - ((2 : ℕ) : ℝ) * x ^ (2 - 1) * 1) x :=
      ((hasDerivAt_id x).const_mul (2 * p)).sub ((hasDerivAt_id x).pow 2)
    refine (h.const_mul (m / p ^ 2)).congr_deriv ?_
    norm_num; ring
  have d2 : ∀ x, HasDerivAt (fun x => m / (1 - p) ^ 2 * ((1 - 2 * p) + 2 * p * x - x ^ 2))
      (2 * m / (1 - p) ^ 2 * (p - x)) x := by
    intro x
    have h : HasDerivAt (fun x : ℝ => (1 - 2 * p) + 2 * p * x - x ^ 2)
        (2 * p * 1 - ((2 : ℕ) : ℝ) * x ^ (2 - 1) * 1) x :=
      (((hasDerivAt_id x).const_mul (2 * p)).const_add (1 - 2 * p)).sub ((hasDerivAt_id x).pow 2)
    refine (h.const_mul (m / (1 - p) ^ 2)).congr_deriv ?_
    norm_num; ring
  have at1 : m / p ^ 2 * (2 * p * p - p ^ 2) = m := by field_simp; ring
  have at2 : m / (1 - p) ^ 2 * ((1 - 2 * p) + 2 * p * p - p ^ 2) = m := by field_simp; ring
  refine ⟨?_, ?_, ?_, ?_, ?_, ?_, ?_⟩
  · intro x
    rcases lt_trichotomy x p with h | h | h
    · have e : nacaSlope m p x = 2 * m / p ^ 2 * (p - x) := by simp [nacaSlope, h.le]
      rw [e]
      apply (d1 x).congr_of_eventuallyEq
      filter_upwards [gt_mem_nhds h] with y hy
      simp [nacaCamber, le_of_lt hy]
    · subst h
      have e : nacaSlope m x x = 0 := by simp [nacaSlope]
      rw [e]
      have l := d1 x
      have r := d2 x
      simp only [sub_self, mul_zero] at l r
      have hl : HasDerivWithinAt (nacaCamber m x) 0 (Set.Iic x) x := by
        apply l.hasDerivWithinAt.congr
        · intro y hy; simp [nacaCamber, Set.mem_Iic.mp hy]
        · simp [nacaCamber]
      have hr : HasDerivWithinAt (nacaCamber m x) 0 (Set.Ici x) x := by
        apply r.hasDerivWithinAt.congr
        · intro y hy
          rcases eq_or_lt_of_le (Set.mem_Ici.mp hy) with h | h
          · subst h; rw [at2]; simp only [nacaCamber, le_refl, if_true]; exact at1
          · simp [nacaCamber, not_le.mpr h]
        · rw [at2]; simp only [nacaCamber, le_refl, if_true]; exact at1
      have := hl.union hr
      rw [Set.Iic_union_Ici] at this
      exact hasDerivWithinAt_univ.mp this
    · have e : nacaSlope m p x = 2 * m / (1 - p) ^ 2 * (p - x) := by simp [nacaSlope, not_le.mpr h]
      rw [e]
      apply (d2 x).congr_of_eventuallyEq
      filter_upwards [lt_mem_nhds h] with y hy
      simp [nacaCamber, not_le.mpr hy]
  · apply Continuous.if_le
    · fun_prop
    · fun_prop
    · exact continuous_id
    · exact continuous_const
    · intro x hx; rw [hx]; simp
  · simp [nacaCamber, hp0.le]
  · simp only [nacaCamber, not_le.mpr hp1, if_false]; ring
  · simp only [nacaCamber, le_refl, if_true]; exact at1
  · simp [nacaSlope]
  · intro x h0 h1
    unfold nacaCamber
    have hp2 : 0 < p ^ 2 := by positivity
    have hq2 : 0 < (1 - p) ^ 2 := by positivity
    split_ifs with h
    · constructor
      · apply mul_nonneg (by positivity); nlinarith
      · rw [div_mul_eq_mul_div, div_le_iff₀ hp2]
        nlinarith [mul_nonneg hm (sq_nonneg (p - x))]
    · push Not at h
      constructor
      · apply mul_nonneg (by positivity); nlinarith
      · rw [div_mul_eq_mul_div, div_le_iff₀ hq2]
        nlinarith [mul_nonneg hm (sq_nonneg (p - x))]

/-! ## The outline -/

theorem masked_eq_map (p : ℝ) (f g : ℝ → ℝ) : ∀ xs : List ℝ, xs.Pairwise (· < ·) →
    masked p f g xs = xs.map (open Classical in fun x => if x ≤ p then f x else g x)
  | [], _ => by simp [masked]
  | x :: xs, h => by
    classical
    rw [List.pairwise_cons] at h
    have ih := masked_eq_map p f g xs h.2
    unfold masked at ih ⊢
    by_cases hx : x ≤ p
    · simp only [List.filter_cons, hx, decide_true, if_true, List.map_cons, List.cons_append]
      simp [not_lt.mpr hx, ← ih]
    · have hn : xs.filter (fun y => decide (y ≤ p)) = [] := by
        rw [List.filter_eq_nil_iff]
        intro y hy
        have := h.1 y hy
        simp; push Not at hx; linarith
      rw [hn] at ih
      push Not at hx
      simp only [List.filter_cons, not_le.mpr hx, decide_false, hn]
      simp only [List.map_nil, List.nil_append] at ih
      simp [hx, ih, not_le.mpr hx]

theorem cosspace_sorted (n : ℕ) (hn : 2 ≤ n) : (cosspace 0 1 n).Pairwise (· < ·) := by
  have h := C07_cosspace 0 1 n (by norm_num) hn
  rw [List.pairwise_iff_getElem]
  intro i j hi hj hij
  exact h.increasing i j _ _ hij (List.getElem?_eq_getElem hi) (List.getElem?_eq_getElem hj)

theorem cosspace_station (k : ℕ) (hk : k ≤ 99) : (cosspace 0 1 100).getD k 0 = nacaStation k := by
  unfold cosspace nacaStation
  rw [getD_map' _ _ _ 0 _ (by rw [linspace_length]; omega)]
  have : (linspace Real.pi 0 100).getD k 0 = Real.pi - Real.pi * k / 99 := by
    simp only [List.getD, linspace_getElem? _ _ _ _ k (by omega : k < 100)]
    simp; ring
  rw [this, Real.cos_pi_sub]; ring

/-- C24: the outline of every NACA four-digit airfoil has 199 points; the points 99-k and 99+k are the upper and lower
surface points of chordwise station k, at half thickness from the camber line perpendicular to it. (So the outline runs
from the upper trailing edge (k = 99) over the leading edge (k = 0, on both surfaces) to the lower trailing edge.) -/
theorem C24_outline (d1 d2 t : ℕ) :
    (nacaCoordinates d1 d2 t).length = 199 ∧
    ∀ k ≤ 99,
      let x := nacaStation k
      let p : ℝ := if d2 = 0 then 1 / 2 else d2 / 10
      let theta := Real.arctan (nacaSlope (d1 / 100) p x)
      let y := nacaHalfThickness (t / 100) x
      let c := nacaCamber (d1 / 100) p x
      (nacaCoordinates d1 d2 t).getD (99 - k) (0, 0) = (x - y * Real.sin theta, c + y * Real.cos theta) ∧
      (nacaCoordinates d1 d2 t).getD (99 + k) (0, 0) = (x + y * Real.sin theta, c - y * Real.cos theta) := by
  have hlen : (cosspace 0 1 100).length = 100 := (C07_cosspace 0 1 100 (by norm_num) (by norm_num)).length
  have hsort := cosspace_sorted 100 (by norm_num)
  constructor
  · unfold nacaCoordinates
    simp only [masked_eq_map _ _ _ _ hsort]
    simp [hlen]
  · intro k hk
    have hx0 := cosspace_station k hk
    have hp : nacaLoc d2 = if d2 = 0 then 1 / 2 else (d2 : ℝ) / 10 := by
      unfold nacaLoc; split_ifs <;> norm_num; ring
    have hm : (d1 : ℝ) * 0.01 = d1 / 100 := by norm_num; ring
    have ht : (t : ℝ) * 0.01 = t / 100 := by norm_num; ring
    have y0 : k = 0 → nacaHalfThickness (t / 100) (nacaStation k) = 0 := by
      rintro rfl; simp [nacaHalfThickness, nacaStation]
    simp only
    set x := nacaStation k with hxdef
    unfold nacaCoordinates
    simp only [masked_eq_map _ _ _ _ hsort, hp, hm, ht]
    set p : ℝ := if d2 = 0 then 1 / 2 else (d2 : ℝ) / 10
    have hcam : ∀ z, (open Classical in if z ≤ p then camber1 (d1 / 100) p z else camber2 (d1 / 100) p z)
        = nacaCamber (d1 / 100) p z := fun z => rfl
    have hslo : ∀ z, (open Classical in if z ≤ p then slope1 (d1 / 100) p z else slope2 (d1 / 100) p z)
        = nacaSlope (d1 / 100) p z := fun z => rfl
    simp only [hcam, hslo]
    have hthick : nacaThickness (t / 100) = nacaHalfThickness (t / 100) := rfl
    simp only [hthick]
    have hz : ∀ (l m : List ℝ) (i : ℕ), i < l.length → i < m.length →
        (List.zip l m).getD i (0, 0) = (l.getD i 0, m.getD i 0) := by
      intro l m i h1 h2; simp [List.getD, h1, h2]
    have hzw : ∀ (f g : ℝ → ℝ) (h : ℝ → ℝ → ℝ) (l : List ℝ),
        List.zipWith h (l.map f) (l.map g) = l.map (fun z => h (f z) (g z)) := by
      intro f g h l; simp [List.zipWith_map, List.zipWith_self]
    have hzw' : ∀ (g : ℝ → ℝ) (h : ℝ → ℝ → ℝ) (l : List ℝ),
        List.zipWith h l (l.map g) = l.map (fun z => h z (g z)) := by
      intro g h l; simpa using hzw id g h l
    simp only [List.map_map, hzw, hzw']
    constructor
    · rw [hz _ _ _ (by simp [hlen]; omega) (by simp [hlen]; omega)]
      rw [getD_append_left' _ _ _ _ (by simp [hlen]; omega), getD_append_left' _ _ _ _ (by simp [hlen]; omega),
        getD_reverse' _ _ _ (by simp [hlen]; omega), getD_reverse' _ _ _ (by simp [hlen]; omega)]
      simp only [List.length_map, hlen]
      rw [show 100 - 1 - (99 - k) = k by omega, getD_map' _ _ _ 0 _ (by omega), getD_map' _ _ _ 0 _ (by omega), hx0]
      rfl
    · rcases Nat.eq_zero_or_pos k with h0 | hpos
      · rw [hz _ _ _ (by simp [hlen]; omega) (by simp [hlen]; omega)]
        rw [getD_append_left' _ _ _ _ (by simp [hlen]; omega), getD_append_left' _ _ _ _ (by simp [hlen]; omega),
          getD_reverse' _ _ _ (by simp [hlen]; omega), getD_reverse' _ _ _ (by simp [hlen]; omega)]
        simp only [List.length_map, hlen]
        rw [show 100 - 1 - (99 + k) = k by omega, getD_map' _ _ _ 0 _ (by omega), getD_map' _ _ _ 0 _ (by omega), hx0,
          y0 h0]
        simp only [Function.comp]; simp
      · rw [hz _ _ _ (by simp [hlen]; omega) (by simp [hlen]; omega)]
        rw [getD_append_right' _ _ _ _ (by simp [hlen]; omega), getD_append_right' _ _ _ _ (by simp [hlen]; omega)]
        rw [← List.drop_one, ← List.drop_one, getD_drop, getD_drop]
        simp only [List.length_map, List.length_reverse, hlen]
        rw [show 1 + (99 + k - 100) = k by omega, getD_map' _ _ _ 0 _ (by omega), getD_map' _ _ _ 0 _ (by omega), hx0]
        rfl

/-- C24: the midpoint of the two outline points of a station is the camber point of the station. -/
theorem C24_outline_midpoints (d1 d2 t k : ℕ) (hk : k ≤ 99) :
    (1 / 2 : ℝ) • ((nacaCoordinates d1 d2 t).getD (99 - k) (0, 0) + (nacaCoordinates d1 d2 t).getD (99 + k) (0, 0))
      = (nacaStation k, nacaCamber (d1 / 100) (if d2 = 0 then 1 / 2 else d2 / 10) (nacaStation k)) := by
  obtain ⟨h1, h2⟩ := (C24_outline d1 d2 t).2 k hk
  rw [h1, h2]
  ext <;> simp <;> ring

/-- C24: a 00xx airfoil is symmetric about the chord. -/
theorem C24_symmetric (d2 t k : ℕ) (hk : k ≤ 99) :
    (nacaCoordinates 0 d2 t).getD (99 + k) (0, 0)
      = (((nacaCoordinates 0 d2 t).getD (99 - k) (0, 0)).1, -((nacaCoordinates 0 d2 t).getD (99 - k) (0, 0)).2) := by
  obtain ⟨h1, h2⟩ := (C24_outline 0 d2 t).2 k hk
  rw [h1, h2]
  ext <;> simp [nacaSlope, nacaCamber]

theorem station_pos (k : ℕ) (hk : 0 < k) (hk2 : k ≤ 99) : 0 < nacaStation k := by
  unfold nacaStation
  have hpi := Real.pi_pos
  have hk' : (0 : ℝ) < k := by exact_mod_cast hk
  have hk2' : (k : ℝ) ≤ 99 := by exact_mod_cast hk2
  have : Real.cos (Real.pi * k / 99) < Real.cos 0 := by
    apply Real.cos_lt_cos_of_nonneg_of_le_pi le_rfl
    · rw [div_le_iff₀ (by norm_num)]; nlinarith
    · positivity
  rw [Real.cos_zero] at this
  linarith

theorem station_zero : nacaStation 0 = 0 := by simp [nacaStation]
theorem station_last : nacaStation 99 = 1 := by
  simp [nacaStation]

/-- C24: a 00xx airfoil used without repaneling is accepted; its leading edge is the middle point of the outline and
its camber line is the chord. -/
theorem C24_symmetric_accepted (d2 t : ℕ) : ∃ a, WellFormed (nacaCoordinates 0 d2 t) a ∧
    argminX (nacaCoordinates 0 d2 t) = 99 ∧ a.mcl.length = 100 ∧
    ∀ k ≤ 99, a.mcl.getD k (0, 0) = (nacaStation k, 0) := by
  obtain ⟨hlen, hget⟩ := C24_outline 0 d2 t
  set c := nacaCoordinates 0 d2 t with hc
  have hx : ∀ k ≤ 99, (c.getD (99 - k) (0, 0)).1 = nacaStation k ∧ (c.getD (99 + k) (0, 0)).1 = nacaStation k := by
    intro k hk
    obtain ⟨h1, h2⟩ := hget k hk
    rw [h1, h2]; simp [nacaSlope]
  have h99 : (c.getD 99 (0, 0)).1 = 0 := by have := (hx 0 (by norm_num)).2; rw [station_zero] at this; exact this
  have harg : argminX c = 99 := by
    apply argminX_eq c 99 (by omega)
    · intro i hi
      have := (hx (99 - i) (by omega)).1
      rw [show 99 - (99 - i) = i by omega] at this
      rw [h99, this]; exact station_pos _ (by omega) (by omega)
    · intro i hi
      rw [h99]
      rcases le_total i 99 with h | h
      · have := (hx (99 - i) (by omega)).1
        rw [show 99 - (99 - i) = i by omega] at this
        rw [this]
        rcases Nat.eq_zero_or_pos (99 - i) with h0 | h0
        · rw [h0, station_zero]
        · exact (station_pos _ h0 (by omega)).le
      · have := (hx (i - 99) (by omega)).2
        rw [show 99 + (i - 99) = i by omega] at this
        rw [this]
        rcases Nat.eq_zero_or_pos (i - 99) with h0 | h0
        · rw [h0, station_zero]
        · exact (station_pos _ h0 (by omega)).le
  have hne : c ≠ [] := by intro h; rw [h] at hlen; simp at hlen
  have hodd : c.length = 2 * argminX c + 1 := by rw [harg, hlen]
  obtain ⟨a, ha⟩ := ofCoordinates_of_odd c hne hodd
  have hw : WellFormed c a := ⟨ha, hne, hodd⟩
  obtain ⟨_, hml, _, hst⟩ := hw.parts
  rw [harg] at hml hst
  refine ⟨a, hw, harg, hml, ?_⟩
  intro k hk
  rw [(hst k hk).1]
  have := C24_outline_midpoints 0 d2 t k hk
  rw [← hc] at this
  rw [this]
  simp [nacaCamber]

/-! ## Cambered outlines without repaneling

The leading-edge index is found as the leftmost point of the outline. On a cambered airfoil the upper surface points
next to the nose lie left of the nose, so the two surfaces found have different numbers of points. -/

theorem outline_last_pos (d1 d2 t : ℕ) (ht : t < 100) :
    0 < ((nacaCoordinates d1 d2 t).getD 0 (0, 0)).1 ∧ 0 < ((nacaCoordinates d1 d2 t).getD 198 (0, 0)).1 := by
  obtain ⟨h1, h2⟩ := (C24_outline d1 d2 t).2 99 le_rfl
  simp only [Nat.sub_self] at h1
  rw [h1, show 198 = 99 + 99 by rfl, h2, station_last]
  simp only
  set s := Real.sin _
  have hs := abs_le.mp (Real.abs_sin_le_one (Real.arctan
    (nacaSlope (d1 / 100) (if d2 = 0 then 1 / 2 else d2 / 10) 1)))
  have hs' : -1 ≤ s ∧ s ≤ 1 := hs
  have ht0 : (0 : ℝ) ≤ t := by positivity
  have ht1 : (t : ℝ) ≤ 100 := by exact_mod_cast ht.le
  have hy : nacaHalfThickness (t / 100) 1 = t * 0.000105 := by
    simp [nacaHalfThickness]; ring
  rw [hy]
  constructor <;> nlinarith

/-- C24, the failure: a NACA outline with any point left of the nose cannot be used without repaneling. -/
theorem C24_cambered_rejected (d1 d2 t : ℕ) (ht : t < 100)
    (h : ∃ i < 199, ((nacaCoordinates d1 d2 t).getD i (0, 0)).1 < 0) :
    Airfoil.ofCoordinates (nacaCoordinates d1 d2 t) = .error .valueError := by
  obtain ⟨hlen, hget⟩ := C24_outline d1 d2 t
  obtain ⟨hp0, hp198⟩ := outline_last_pos d1 d2 t ht
  set c := nacaCoordinates d1 d2 t
  have hne : c ≠ [] := by intro h; rw [h] at hlen; simp at hlen
  have hK := argminX_lt c hne
  obtain ⟨i, hi, hneg⟩ := h
  have hmin := argminX_le c i (by omega)
  have h99 : (c.getD 99 (0, 0)).1 = 0 := by
    have := (hget 0 (by norm_num)).2
    simp only [Nat.add_zero] at this
    rw [this]
    simp [station_zero, nacaHalfThickness]
  have hk0 : argminX c ≠ 0 := by intro e; rw [e] at hmin; linarith
  have hk99 : argminX c ≠ 99 := by intro e; rw [e, h99] at hmin; linarith
  have hk198 : argminX c ≠ 198 := by intro e; rw [e] at hmin; linarith
  unfold Airfoil.ofCoordinates
  rw [if_neg hne]
  have hu : (upperCoordinates c).length = argminX c + 1 := by simp [upperCoordinates]; omega
  have hl : (lowerCoordinates c).length = 199 - argminX c := by simp [lowerCoordinates]; omega
  have : ∀ f, bcast f (upperCoordinates c).reverse (lowerCoordinates c) = .error .valueError := by
    intro f
    unfold bcast
    rw [if_neg (by rw [List.length_reverse, hu, hl]; omega), if_neg (by rw [List.length_reverse, hu]; omega),
      if_neg (by rw [hl]; omega)]
  simp only [this, bind, Except.bind]

/-- The NACA 4412 is such an airfoil: `Airfoil(name="naca4412", repanel=False)` raises a `ValueError`. -/
theorem C24_naca4412_rejected : Airfoil.ofCoordinates (nacaCoordinates 4 4 12) = .error .valueError := by
  apply C24_cambered_rejected 4 4 12 (by norm_num)
  refine ⟨98, by norm_num, ?_⟩
  obtain ⟨h1, -⟩ := (C24_outline 4 4 12).2 1 (by norm_num)
  simp only [show 99 - 1 = 98 by rfl] at h1
  rw [h1]
  simp only
  have hpi := Real.pi_gt_d2
  have hpi' := Real.pi_lt_d2
  set s := Real.sin (Real.pi / 198) with hs
  have hs1 : s ≤ 0.0160 := by
    have : s ≤ Real.pi / 198 := Real.sin_le (by positivity)
    linarith
  have hs0 : 0 < s := Real.sin_pos_of_pos_of_lt_pi (by positivity) (by linarith)
  have hx : nacaStation 1 = s ^ 2 := by
    unfold nacaStation
    have := Real.cos_two_mul (Real.pi / 198)
    have h2 := Real.sin_sq_add_cos_sq (Real.pi / 198)
    rw [show Real.pi * ((1 : ℕ) : ℝ) / 99 = 2 * (Real.pi / 198) by push_cast; ring, this]
    rw [← hs] at h2
    linarith
  have hsq : Real.sqrt (s ^ 2) = s := Real.sqrt_sq hs0.le
  rw [hx]
  have hs2 : s ^ 2 ≤ 0.0160 * s := by nlinarith
  have hs2' : s ^ 2 ≤ 0.001 := by nlinarith
  have hs2n : 0 ≤ s ^ 2 := by positivity
  have hslope : nacaSlope (((4 : ℕ) : ℝ) / 100) (if (4 : ℕ) = 0 then 1 / 2 else ((4 : ℕ) : ℝ) / 10) (s ^ 2)
      = 0.2 - 0.5 * s ^ 2 := by
    unfold nacaSlope
    rw [if_neg (by norm_num : ¬ (4 : ℕ) = 0), if_pos (by push_cast; linarith)]
    push_cast; ring
  rw [hslope]
  set z := 0.2 - 0.5 * s ^ 2 with hz
  have hz1 : 0.19 ≤ z := by rw [hz]; linarith
  have hz2 : z ≤ 0.2 := by rw [hz]; linarith
  have hsin : 0.18 ≤ Real.sin (Real.arctan z) := by
    rw [Real.sin_arctan, le_div_iff₀ (by positivity)]
    have : Real.sqrt (1 + z ^ 2) ≤ 1.03 := by
      rw [Real.sqrt_le_left (by norm_num)]
      nlinarith
    linarith
  have hy : 0.16 * s ≤ nacaHalfThickness (((12 : ℕ) : ℝ) / 100) (s ^ 2) := by
    unfold nacaHalfThickness
    rw [hsq]
    push_cast
    have h4 : (s ^ 2) ^ 2 ≤ 0.0160 * s := by nlinarith
    have h8 : (s ^ 2) ^ 4 ≤ 0.0160 * s := by nlinarith [sq_nonneg ((s ^ 2) ^ 2)]
    have h6 : 0 ≤ (s ^ 2) ^ 3 := by positivity
    linarith
  have hy0 : 0 ≤ nacaHalfThickness (((12 : ℕ) : ℝ) / 100) (s ^ 2) := le_trans (by positivity) hy
  have : 0.16 * s * 0.18 ≤ nacaHalfThickness (((12 : ℕ) : ℝ) / 100) (s ^ 2) * Real.sin (Real.arctan z) :=
    mul_le_mul hy hsin (by norm_num) hy0
  nlinarith

/-! ## Repaneled airfoils -/

/-- C24: whatever the outline and the interpolator, a repaneled airfoil with `n` points per side has `2 n - 1` outline
points with the leading edge in the middle, and `n` camber points whose x are the `n` cosine-spaced values from 0 to 1
(strictly increasing). -/
theorem C24_repaneled (pchip : List ℝ → List ℝ → Except Err (ℝ → ℝ)) (c : List (ℝ × ℝ)) (n : ℕ) (hn : 2 ≤ n)
    (a : Airfoil) (h : Airfoil.create pchip c true n = .ok a) :
    WellFormed a.coordinates a ∧ argminX a.coordinates = n - 1 ∧ a.mcl.length = n ∧
    a.mcl.map Prod.fst = cosspace 0 1 n ∧ (a.mcl.map Prod.fst).Pairwise (· < ·) := by
  have hg := C07_cosspace 0 1 n (by norm_num) hn
  have hsort := cosspace_sorted n hn
  unfold Airfoil.create at h
  simp only [if_true, bind, Except.bind] at h
  split at h
  · simp at h
  · rename_i r hr
    have hac := (ofCoordinates_coordinates h).1
    have hne := (ofCoordinates_coordinates h).2
    have hrx : r.map Prod.fst = (cosspace 0 1 n).reverse ++ (cosspace 0 1 n).tail := by
      unfold repanelCoordinates at hr
      simp only [bind, Except.bind] at hr
      split at hr
      · simp at hr
      · split at hr
        · simp at hr
        · simp only [pure, Except.pure, Except.ok.injEq] at hr
          rw [← hr, List.map_fst_zip (by simp)]
    have hlen : r.length = 2 * (n - 1) + 1 := by
      have := congrArg List.length hrx
      simp [hg.length] at this; omega
    have hx : ∀ k < n, (r.getD (n - 1 - k) (0, 0)).1 = (cosspace 0 1 n).getD k 0 ∧
        (r.getD (n - 1 + k) (0, 0)).1 = (cosspace 0 1 n).getD k 0 := by
      intro k hk
      have hfst : ∀ i < r.length, (r.getD i (0, 0)).1 = (r.map Prod.fst).getD i 0 := by
        intro i hi; rw [getD_map' _ _ _ (0, 0) _ hi]
      have hup : ∀ i < n, (r.map Prod.fst).getD i 0 = (cosspace 0 1 n).getD (n - 1 - i) 0 := by
        intro i hi
        rw [hrx, getD_append_left' _ _ _ _ (by simp [hg.length]; omega),
          getD_reverse' _ _ _ (by rw [hg.length]; omega), hg.length]
      constructor
      · rw [hfst _ (by omega), hup _ (by omega), show n - 1 - (n - 1 - k) = k by omega]
      · rcases Nat.eq_zero_or_pos k with rfl | hpos
        · rw [hfst _ (by omega), hup _ (by omega)]; simp
        · rw [hfst _ (by omega), hrx, getD_append_right' _ _ _ _ (by simp [hg.length]; omega), ← List.drop_one,
            getD_drop]
          congr 1
          rw [List.length_reverse, hg.length]; omega
    have hgrid : ∀ i j, i < j → j < n → (cosspace 0 1 n).getD i 0 < (cosspace 0 1 n).getD j 0 := by
      intro i j hij hj
      apply hg.increasing i j _ _ hij
      · simp [List.getD, show i < (cosspace 0 1 n).length by rw [hg.length]; omega]
      · simp [List.getD, show j < (cosspace 0 1 n).length by rw [hg.length]; omega]
    have hmid : (r.getD (n - 1) (0, 0)).1 = (cosspace 0 1 n).getD 0 0 := (hx 0 (by omega)).1
    have hmin : ∀ k < n, (cosspace 0 1 n).getD 0 0 ≤ (cosspace 0 1 n).getD k 0 := by
      intro k hk
      rcases Nat.eq_zero_or_pos k with rfl | hpos
      · exact le_rfl
      · exact (hgrid 0 k hpos hk).le
    have harg : argminX r = n - 1 := by
      apply argminX_eq r (n - 1) (by omega)
      · intro i hi
        have := (hx (n - 1 - i) (by omega)).1
        rw [show n - 1 - (n - 1 - i) = i by omega] at this
        rw [hmid, this]; exact hgrid 0 _ (by omega) (by omega)
      · intro i hi
        rw [hmid]
        rcases le_total i (n - 1) with h | h
        · have := (hx (n - 1 - i) (by omega)).1
          rw [show n - 1 - (n - 1 - i) = i by omega] at this
          rw [this]; exact hmin _ (by omega)
        · have := (hx (i - (n - 1)) (by omega)).2
          rw [show n - 1 + (i - (n - 1)) = i by omega] at this
          rw [this]; exact hmin _ (by omega)
    have hodd : r.length = 2 * argminX r + 1 := by rw [harg, hlen]
    have hw : WellFormed r a := ⟨h, hne, hodd⟩
    obtain ⟨_, hml, _, hst⟩ := hw.parts
    rw [harg] at hml hst
    have hmx : a.mcl.map Prod.fst = cosspace 0 1 n := by
      apply ext_getD _ _ 0 (by rw [List.length_map, hml, hg.length]; omega)
      intro i hi
      rw [List.length_map, hml] at hi
      rw [getD_map' _ _ _ (0, 0) _ (by omega), (hst i (by omega)).1]
      have := hx i (by omega)
      simp only [Prod.smul_fst, Prod.fst_add, this.1, this.2, smul_eq_mul]
      ring
    rw [hac]
    exact ⟨hw, harg, by omega, hmx, by rw [hmx]; exact hsort⟩

/-- Non-vacuity: with an interpolator that accepts everything the default NACA 4412 is created. -/
example : ∃ a, Airfoil.create (fun _ _ => .ok fun x => x * (1 - x)) (nacaCoordinates 4 4 12) true 3 = .ok a := by
  have hr : repanelCoordinates (fun _ _ => .ok fun x => x * (1 - x)) (nacaCoordinates 4 4 12) 3
      = .ok [(1, 0), (1 / 2, 1 / 4), (0, 0), (1 / 2, 1 / 4), (1, 0)] := by
    have hc : cosspace 0 1 3 = [0, 1 / 2, 1] := by
      simp [cosspace, linspace, List.range_succ]
      rw [show Real.pi + (-(Real.pi)) / (3 - 1) = Real.pi / 2 by ring,
        show Real.pi + 2 * (-(Real.pi) / (3 - 1)) = 0 by ring]
      norm_num
    simp [repanelCoordinates, hc, bind, Except.bind, pure, Except.pure]
    norm_num
  unfold Airfoil.create
  simp only [if_true, hr, bind, Except.bind]
  have harg : argminX [((1 : ℝ), (0 : ℝ)), (1 / 2, 1 / 4), (0, 0), (1 / 2, 1 / 4), (1, 0)] = 2 := by
    apply argminX_eq
    · simp
    · intro i hi; interval_cases i <;> simp
    · intro i hi
      have : i < 5 := by simpa using hi
      interval_cases i <;> simp
  exact ofCoordinates_of_odd _ (by simp) (by rw [harg]; simp)

example : (0 : ℝ) ≤ 4 / 100 ∧ (0 : ℝ) < 4 / 10 ∧ (4 / 10 : ℝ) < 1 := by norm_num

end

end Ptera
