import Verif.Lemmas.Aero
import Mathlib.MeasureTheory.Integral.IntervalIntegral.FundThmCalculus
import Mathlib.Analysis.SpecialFunctions.Sqrt
import Mathlib.Analysis.Calculus.Deriv.Mul
import Mathlib.Analysis.Calculus.Deriv.Inv
import Mathlib.Analysis.Calculus.Deriv.Add
import Mathlib.Analysis.Calculus.Deriv.Pow

/-!
# Property C09: the kernel is the Biot–Savart integral
-/

namespace Ptera

open Real MeasureTheory intervalIntegral

noncomputable section

/-- Specification: the Biot–Savart integrand `dl/dt × (p - x(t)) / |p - x(t)|³` for the straight segment
`x(t) = A + t (B - A)`, `0 ≤ t ≤ 1`. -/
def biotSavartIntegrand (A B p : V3) (t : ℝ) : V3 :=
  (1 / (p - (A + t • (B - A))).norm ^ 3) • (B - A).cross (p - (A + t • (B - A)))

/-- Specification: the velocity induced at `p` by a segment from `A` to `B` with circulation `Γ`:
`Γ/(4π) ∫ dl × (p - x)/|p - x|³`, component by component. -/
def biotSavart (Γ : ℝ) (A B p : V3) : V3 :=
  (Γ / (4 * π)) • ⟨∫ t in (0:ℝ)..1, (biotSavartIntegrand A B p t).x,
    ∫ t in (0:ℝ)..1, (biotSavartIntegrand A B p t).y,
    ∫ t in (0:ℝ)..1, (biotSavartIntegrand A B p t).z⟩

/-- Antiderivative used below: `d/dt (a t + b) / (D √q) = 1 / √q³` for `q = a t² + 2 b t + c`,
`D = a c - b²`. -/
theorem hasDerivAt_segment (a b c t : ℝ) (hD : a * c - b ^ 2 ≠ 0) (hq : 0 < a * t ^ 2 + 2 * b * t + c) :
    HasDerivAt (fun t => (a * t + b) / ((a * c - b ^ 2) * √(a * t ^ 2 + 2 * b * t + c)))
      (1 / √(a * t ^ 2 + 2 * b * t + c) ^ 3) t := by
  have hs : 0 < √(a * t ^ 2 + 2 * b * t + c) := Real.sqrt_pos.mpr hq
  have hss : √(a * t ^ 2 + 2 * b * t + c) ^ 2 = a * t ^ 2 + 2 * b * t + c := Real.sq_sqrt hq.le
  have d1 : HasDerivAt (fun t => a * t ^ 2 + 2 * b * t + c) (a * (2 * t) + 2 * b) t := by
    have h1 : HasDerivAt (fun t : ℝ => t ^ 2) (2 * t) t := by simpa using hasDerivAt_pow 2 t
    have h2 : HasDerivAt (fun t : ℝ => 2 * b * t) (2 * b) t := by
      simpa using HasDerivAt.const_mul (2 * b) (hasDerivAt_id t)
    simpa using HasDerivAt.add_const c (HasDerivAt.add (HasDerivAt.const_mul a h1) h2)
  have d2 := HasDerivAt.sqrt d1 hq.ne'
  have d3 : HasDerivAt (fun t : ℝ => a * t + b) a t := by
    simpa using HasDerivAt.add_const b (HasDerivAt.const_mul a (hasDerivAt_id t))
  have d4 := HasDerivAt.div d3 (HasDerivAt.const_mul (a * c - b ^ 2) d2) (mul_ne_zero hD hs.ne')
  refine HasDerivAt.congr_deriv d4 ?_
  set q := √(a * t ^ 2 + 2 * b * t + c) with hqdef
  field_simp
  rw [hss]
  ring

theorem segment_integral (a b c : ℝ) (hD : 0 < a * c - b ^ 2) (ha : 0 < a) :
    ∫ t in (0:ℝ)..1, 1 / √(a * t ^ 2 + 2 * b * t + c) ^ 3
      = ((a + b) / √(a + 2 * b + c) - b / √c) / (a * c - b ^ 2) := by
  have hq : ∀ t : ℝ, 0 < a * t ^ 2 + 2 * b * t + c := by
    intro t
    have h : 0 < a * (a * t ^ 2 + 2 * b * t + c) := by nlinarith [sq_nonneg (a * t + b)]
    exact (pos_iff_pos_of_mul_pos h).mp ha
  rw [integral_eq_sub_of_hasDerivAt (f := fun t => (a * t + b) / ((a * c - b ^ 2) * √(a * t ^ 2 + 2 * b * t + c)))]
  · simp only [mul_one, one_pow, mul_zero, zero_add, ne_eq, OfNat.ofNat_ne_zero, not_false_eq_true, zero_pow]
    have h1 : 0 < √(a + 2 * b + c) := Real.sqrt_pos.mpr (by simpa using hq 1)
    have h2 : 0 < √c := Real.sqrt_pos.mpr (by simpa using hq 0)
    field_simp
  · intro t _
    exact hasDerivAt_segment a b c t hD.ne' (hq t)
  · apply ContinuousOn.intervalIntegrable
    apply ContinuousOn.div continuousOn_const
    · fun_prop
    · intro t _
      have := Real.sqrt_pos.mpr (hq t)
      positivity

/-- C09: away from the kernel's cut-off, the velocity the code computes for a vortex segment of age zero is
exactly the Biot–Savart integral along the segment. -/
theorem C09_biot_savart (A B p : V3) (Γ nu : ℝ)
    (hA : eps ≤ (A - p).norm) (hB : eps ≤ (B - p).norm)
    (hline : eps ≤ ((A - p).cross (B - p)).norm ^ 2) :
    expandedEntry nu ⟨A, B, Γ, 0⟩ p = biotSavart Γ A B p := by
  have hcut : ¬ Cutoff ⟨A, B, Γ, 0⟩ p := by
    unfold Cutoff; push Not; exact ⟨hA, hB, hline⟩
  rw [expandedEntry_eq, if_neg hcut]
  set r1 := A - p with hr1
  set r2 := B - p with hr2
  have he := eps_pos
  have n1 : 0 < r1.norm := lt_of_lt_of_le he hA
  have n2 : 0 < r2.norm := lt_of_lt_of_le he hB
  have n3 : 0 < (r1.cross r2).norm ^ 2 := lt_of_lt_of_le he hline
  have hr0 : B - A = r2 - r1 := by rw [hr1, hr2]; abel
  have hpath : ∀ t : ℝ, p - (A + t • (B - A)) = -(r1 + t • (r2 - r1)) := by
    intro t; rw [hr0, hr1]; abel
  -- the numerator is constant along the segment
  have hnum : ∀ t : ℝ, (B - A).cross (p - (A + t • (B - A))) = r1.cross r2 := by
    intro t; rw [hpath, hr0]; ext <;> simp <;> ring
  set a := (r2 - r1).dot (r2 - r1) with ha
  set b := r1.dot (r2 - r1) with hb
  set c := r1.dot r1 with hc
  have hnorm : ∀ t : ℝ, (p - (A + t • (B - A))).norm = √(a * t ^ 2 + 2 * b * t + c) := by
    intro t
    rw [hpath, V3.norm_neg]
    unfold V3.norm
    congr 1
    rw [ha, hb, hc]
    simp [V3.dot]; ring
  have hDeq : a * c - b ^ 2 = (r1.cross r2).norm ^ 2 := by
    rw [V3.norm_sq, ha, hb, hc]; simp [V3.dot]; ring
  have hD : 0 < a * c - b ^ 2 := by rw [hDeq]; exact n3
  have hapos : 0 < a := by
    have h0 : 0 ≤ a := V3.dot_self_nonneg _
    rcases h0.lt_or_eq with h | h
    · exact h
    · exfalso; rw [← h] at hD; nlinarith [sq_nonneg b]
  have hI := segment_integral a b c hD hapos
  have hint : ∀ f : V3 → ℝ, (∀ (k : ℝ) v, f (k • v) = k * f v) →
      ∫ t in (0:ℝ)..1, f (biotSavartIntegrand A B p t)
        = ((a + b) / √(a + 2 * b + c) - b / √c) / (a * c - b ^ 2) * f (r1.cross r2) := by
    intro f hf
    have : (fun t => f (biotSavartIntegrand A B p t))
        = fun t => 1 / √(a * t ^ 2 + 2 * b * t + c) ^ 3 * f (r1.cross r2) := by
      funext t
      rw [biotSavartIntegrand, hnum, hnorm, hf]
    rw [this, intervalIntegral.integral_mul_const, hI]
  have e2 : √(a + 2 * b + c) = r2.norm := by
    unfold V3.norm; congr 1; rw [ha, hb, hc]; simp [V3.dot]; ring
  have e1 : √c = r1.norm := rfl
  have eab : a + b = r2.norm ^ 2 - r1.dot r2 := by
    rw [V3.norm_sq, ha, hb]; simp [V3.dot]; ring
  have eb : b = r1.dot r2 - r1.norm ^ 2 := by
    rw [V3.norm_sq, hb]; simp [V3.dot]; ring
  have hk : kernelCoeff nu ⟨A, B, Γ, 0⟩ p
      = Γ / (4 * π) * (((a + b) / √(a + 2 * b + c) - b / √c) / (a * c - b ^ 2)) := by
    rw [hDeq, e2, e1, eab, eb]
    simp only [kernelCoeff, ← hr1, ← hr2]
    rw [coreRadius_age_zero _ _ rfl]
    simp only [ne_eq, OfNat.ofNat_ne_zero, not_false_eq_true, zero_pow, mul_zero, add_zero]
    have := Real.pi_pos
    field_simp
    ring
  rw [hk]
  unfold biotSavart
  rw [mul_smul]
  congr 1
  ext
  · rw [hint (fun v => v.x) (fun k v => rfl)]; rfl
  · rw [hint (fun v => v.y) (fun k v => rfl)]; rfl
  · rw [hint (fun v => v.z) (fun k v => rfl)]; rfl

/-- C09: the same for the accumulating function used to evaluate the flow: for any number of segments of age
zero, all points off the cut-off, the returned velocity is the sum of the Biot–Savart integrals. -/
theorem C09_biot_savart_collapsed (origins terminations : List V3) (strengths : List ℝ) (nu : ℝ)
    (p : V3) (ho : origins.length = strengths.length) (ht : terminations.length = strengths.length)
    (hoff : ∀ s ∈ List.zip origins terminations, eps ≤ (s.1 - p).norm ∧ eps ≤ (s.2 - p).norm ∧
      eps ≤ ((s.1 - p).cross (s.2 - p)).norm ^ 2) :
    collapsedLine [p] origins terminations strengths none nu
      = [(List.zipWith (fun (ab : V3 × V3) g => biotSavart g ab.1 ab.2 p)
          (List.zip origins terminations) strengths).sum] := by
  rw [collapsedLine_eq]
  simp only [List.map_cons, List.map_nil]
  congr 2
  apply List.ext_getElem
  · simp [segs, ho, ht]
  · intro i h1 h2
    simp only [segs, Option.getD_none, List.getElem_map, List.getElem_zipWith, List.getElem_zip,
      List.getElem_replicate]
    have hm := hoff _ (List.getElem_mem (l := List.zip origins terminations) (n := i)
      (by simp [segs, ho, ht] at h1; simp [ho, ht, h1]))
    simp only [List.getElem_zip] at hm
    exact C09_biot_savart _ _ _ _ _ hm.1 hm.2.1 hm.2.2

/-- Specification: the point is off the cut-off of the segment. -/
def OffSegment (A B p : V3) : Prop :=
  eps ≤ (A - p).norm ∧ eps ≤ (B - p).norm ∧ eps ≤ ((A - p).cross (B - p)).norm ^ 2

theorem segs_of_maps {α : Type} (vs : List α) (A B : α → V3) (G : α → ℝ) (nu : ℝ) (p : V3)
    (h : ∀ v ∈ vs, OffSegment (A v) (B v) p) :
    (segs (vs.map A) (vs.map B) (vs.map G) none).map (fun s => expandedEntry nu s p)
      = vs.map fun v => biotSavart (G v) (A v) (B v) p := by
  induction vs with
  | nil => simp [segs]
  | cons v vs ih =>
    have h1 := h v (by simp)
    have h2 := ih fun w hw => h w (by simp [hw])
    simp only [segs, Option.getD_none, List.length_map] at h2
    simp only [segs, Option.getD_none, List.map_cons, List.length_cons, List.length_map, List.replicate_succ,
      List.zip_cons_cons, List.zipWith_cons_cons, h2, C09_biot_savart _ _ _ _ _ h1.1 h1.2.1 h1.2.2]

/-- C09: the velocity at a point, off the cut-off of all sides, of any number of ring vortices of age zero is the sum
over the rings of the Biot–Savart integrals along their right, front, left and back side, from the back right corner
round to the back right corner. -/
theorem C09_rings (vs : List RingVortex) (nu : ℝ) (p : V3)
    (h : ∀ v ∈ vs, OffSegment v.backRight v.frontRight p ∧ OffSegment v.frontRight v.frontLeft p ∧
      OffSegment v.frontLeft v.backLeft p ∧ OffSegment v.backLeft v.backRight p) :
    collapsedRing [p] (vs.map (·.backRight)) (vs.map (·.frontRight)) (vs.map (·.frontLeft)) (vs.map (·.backLeft))
        (vs.map (·.strength)) none nu
      = [(vs.map fun v => biotSavart v.strength v.backRight v.frontRight p +
          biotSavart v.strength v.frontRight v.frontLeft p + biotSavart v.strength v.frontLeft v.backLeft p +
          biotSavart v.strength v.backLeft v.backRight p).sum] := by
  unfold collapsedRing
  rw [collapsedLegs_eq]
  simp only [List.map_cons, List.map_nil, List.sum_cons, List.sum_nil]
  rw [segs_of_maps vs _ _ _ nu p fun v hv => (h v hv).1, segs_of_maps vs _ _ _ nu p fun v hv => (h v hv).2.1,
    segs_of_maps vs _ _ _ nu p fun v hv => (h v hv).2.2.1, segs_of_maps vs _ _ _ nu p fun v hv => (h v hv).2.2.2,
    List.sum_map_add, List.sum_map_add, List.sum_map_add]
  congr 1
  abel

/-- C09: the velocity of any number of horseshoe vortices is the sum of the Biot–Savart integrals along their right,
finite and left leg. -/
theorem C09_horseshoes (vs : List HorseshoeVortex) (nu : ℝ) (p : V3)
    (h : ∀ v ∈ vs, OffSegment v.rightLegOrigin v.finiteLegOrigin p ∧
      OffSegment v.finiteLegOrigin v.finiteLegTermination p ∧
      OffSegment v.finiteLegTermination v.leftLegTermination p) :
    collapsedHorseshoe [p] (vs.map (·.rightLegOrigin)) (vs.map (·.finiteLegOrigin))
        (vs.map (·.finiteLegTermination)) (vs.map (·.leftLegTermination)) (vs.map (·.strength)) none nu
      = [(vs.map fun v => biotSavart v.strength v.rightLegOrigin v.finiteLegOrigin p +
          biotSavart v.strength v.finiteLegOrigin v.finiteLegTermination p +
          biotSavart v.strength v.finiteLegTermination v.leftLegTermination p).sum] := by
  unfold collapsedHorseshoe
  rw [collapsedLegs_eq]
  simp only [List.map_cons, List.map_nil, List.sum_cons, List.sum_nil]
  rw [segs_of_maps vs _ _ _ nu p fun v hv => (h v hv).1, segs_of_maps vs _ _ _ nu p fun v hv => (h v hv).2.1,
    segs_of_maps vs _ _ _ nu p fun v hv => (h v hv).2.2, List.sum_map_add, List.sum_map_add]
  congr 1
  abel

/-- A concrete case: a unit segment seen from a point one unit off it. -/
example : eps ≤ ((⟨0, 0, 0⟩ : V3) - ⟨0, 1, 0⟩).norm ∧ eps ≤ ((⟨1, 0, 0⟩ : V3) - ⟨0, 1, 0⟩).norm ∧
    eps ≤ (((⟨0, 0, 0⟩ : V3) - ⟨0, 1, 0⟩).cross (⟨1, 0, 0⟩ - ⟨0, 1, 0⟩)).norm ^ 2 := by
  have h : eps ≤ 1 := by unfold eps; norm_num
  refine ⟨?_, ?_, ?_⟩
  · simpa [V3.norm, V3.dot] using h
  · have : (1 : ℝ) ≤ √(1 + 1) := by rw [Real.one_le_sqrt]; norm_num
    simp [V3.norm, V3.dot]; linarith
  · simpa [V3.norm, V3.dot] using h

/-- A concrete case: a square, seen from above its centre. -/
example : OffSegment ⟨1, 1, 0⟩ ⟨-1, 1, 0⟩ ⟨0, 0, 2⟩ ∧ OffSegment ⟨-1, 1, 0⟩ ⟨-1, -1, 0⟩ ⟨0, 0, 2⟩ ∧
    OffSegment ⟨-1, -1, 0⟩ ⟨1, -1, 0⟩ ⟨0, 0, 2⟩ ∧ OffSegment ⟨1, -1, 0⟩ ⟨1, 1, 0⟩ ⟨0, 0, 2⟩ := by
  have h : eps ≤ 1 := by unfold eps; norm_num
  have h6 : (1 : ℝ) ≤ √6 := by rw [Real.one_le_sqrt]; norm_num
  have key : ∀ a b : V3, a.dot a = 6 → b.dot b = 6 → (a.cross b).dot (a.cross b) = 20 →
      eps ≤ a.norm ∧ eps ≤ b.norm ∧ eps ≤ (a.cross b).norm ^ 2 := by
    intro a b ha hb hc
    rw [V3.norm_sq, hc, V3.norm, V3.norm, ha, hb]
    exact ⟨h.trans h6, h.trans h6, h.trans (by norm_num)⟩
  refine ⟨?_, ?_, ?_, ?_⟩ <;> apply key <;> norm_num [V3.dot]

end

end Ptera
