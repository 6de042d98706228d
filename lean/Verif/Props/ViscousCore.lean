import Verif.Props.BiotSavart
import Verif.Props.Vortex

/-!
# C14: the viscous core

`h` is the distance of a point from the straight line through a segment. The velocity of a segment is the
Biot–Savart integral times `h² / (h² + r²)` with the core radius `r` of a Lamb–Oseen vortex whose viscosity is increased
by Squire's term.
-/

namespace Ptera

/-- C14: off the cut-off, the velocity of a vortex segment of any age is the Biot–Savart integral times
`h² / (h² + 4 · 1.25643 (ν + |Γ| / 10000) age)`, `h` being the distance of the point from the line of the segment (`t`
says where on that line the foot of the perpendicular is). -/
theorem C14_core (A B p : V3) (Γ nu age t : ℝ) (hnu : 0 ≤ nu) (hage : 0 ≤ age)
    (hA : eps ≤ (A - p).norm) (hB : eps ≤ (B - p).norm) (hline : eps ≤ ((A - p).cross (B - p)).norm ^ 2)
    (hfoot : (p - (A + t • (B - A))).dot (B - A) = 0) (h : ℝ) (hh : h = (p - (A + t • (B - A))).norm) :
    expandedEntry nu ⟨A, B, Γ, age⟩ p
      = (h ^ 2 / (h ^ 2 + 4 * 1.25643 * (nu + |Γ| / 10000) * age)) • biotSavart Γ A B p := by
  rw [← C09_biot_savart A B p Γ nu hA hB hline]
  have hcut : ∀ a : ℝ, ¬ Cutoff ⟨A, B, Γ, a⟩ p := by
    intro a
    unfold Cutoff; push Not; exact ⟨hA, hB, hline⟩
  rw [expandedEntry_eq, expandedEntry_eq, if_neg (hcut _), if_neg (hcut _), smul_smul]
  congr 1
  have he := eps_pos
  have n1 : 0 < (A - p).norm := lt_of_lt_of_le he hA
  have n2 : 0 < (B - p).norm := lt_of_lt_of_le he hB
  have n3 : 0 < ((A - p).cross (B - p)).norm ^ 2 := lt_of_lt_of_le he hline
  have hN : ((A - p).cross (B - p)).norm ^ 2 = h ^ 2 * (B - A).norm ^ 2 := by
    have e : (A - p).cross (B - p) = (B - A).cross (p - (A + t • (B - A))) := by
      ext <;> simp [V3.cross] <;> ring
    rw [e, V3.norm_cross_sq, V3.dot_comm, hfoot, hh]
    ring
  have hL : 0 < (B - A).norm ^ 2 := by
    rcases (sq_nonneg (B - A).norm).lt_or_eq with h0 | h0
    · exact h0
    · rw [hN, ← h0, mul_zero] at n3; exact absurd n3 (lt_irrefl _)
  have hh2 : 0 < h ^ 2 := by
    by_contra h0
    have : h ^ 2 = 0 := le_antisymm (not_lt.mp h0) (sq_nonneg h)
    rw [hN, this, zero_mul] at n3; exact absurd n3 (lt_irrefl _)
  have hc : coreRadius nu ⟨A, B, Γ, age⟩ ^ 2 = 4 * 1.25643 * (nu + |Γ| / 10000) * age := by
    rw [core_sq _ _ hnu hage]
    simp only [lamb, squire]
    ring
  have hc0 : 0 ≤ 4 * 1.25643 * (nu + |Γ| / 10000) * age := by have := abs_nonneg Γ; positivity
  unfold kernelCoeff
  simp only
  rw [hc, coreRadius_age_zero _ _ rfl, hN]
  set c := 4 * 1.25643 * (nu + |Γ| / 10000) * age with hcd
  have hs : 0 < h ^ 2 + c := by linarith
  have hsum : h ^ 2 * (B - A).norm ^ 2 + (B - A).norm ^ 2 * c = (B - A).norm ^ 2 * (h ^ 2 + c) := by ring
  rw [hsum]
  have hh0 : h ≠ 0 := by rintro rfl; simp at hh2
  have hL0 : (B - A).norm ≠ 0 := by intro h0; simp [h0] at hL
  have := Real.pi_pos
  field_simp
  ring

/-- A point one metre beside the middle of a segment two metres long meets the hypotheses. -/
example : eps ≤ ((⟨0, 0, 0⟩ : V3) - ⟨1, 1, 0⟩).norm ∧ eps ≤ ((⟨2, 0, 0⟩ : V3) - ⟨1, 1, 0⟩).norm ∧
    eps ≤ (((⟨0, 0, 0⟩ : V3) - ⟨1, 1, 0⟩).cross (⟨2, 0, 0⟩ - ⟨1, 1, 0⟩)).norm ^ 2 ∧
    ((⟨1, 1, 0⟩ : V3) - (⟨0, 0, 0⟩ + (1 / 2 : ℝ) • ((⟨2, 0, 0⟩ : V3) - ⟨0, 0, 0⟩))).dot (⟨2, 0, 0⟩ - ⟨0, 0, 0⟩) = 0 := by
  have h : eps ≤ 1 := by unfold eps; norm_num
  have h2 : (1 : ℝ) ≤ √2 := by rw [Real.one_le_sqrt]; norm_num
  refine ⟨?_, ?_, ?_, ?_⟩
  · simp [V3.norm, V3.dot]; norm_num; linarith
  · simp [V3.norm, V3.dot]; norm_num; linarith
  · rw [V3.norm_sq]; simp [V3.dot, V3.cross]; linarith
  · simp [V3.dot]

end Ptera
