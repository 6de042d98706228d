import Verif.Lemmas.Aero

/-!
# Properties C10–C15: induced velocities
-/

namespace Ptera

open Real

/-! ## C10 -/

/-- The parallel arrays describe one vortex per index. -/
structure Aligned (br fr fl bl : List V3) (strengths : List ℝ) (ages : Option (List ℝ)) : Prop where
  br : br.length = strengths.length
  fr : fr.length = strengths.length
  fl : fl.length = strengths.length
  bl : bl.length = strengths.length
  ages : ∀ l, ages = some l → l.length = strengths.length

/-- C10 (line vortices): the collapsed velocities are the row sums of the expanded ones. No hypothesis. -/
theorem C10_line (points origins terminations : List V3) (strengths : List ℝ)
    (ages : Option (List ℝ)) (nu : ℝ) :
    collapsedLine points origins terminations strengths ages nu
      = (expandedLine points origins terminations strengths ages nu).map List.sum := by
  rw [collapsedLine_eq, expandedLine, List.map_map]; rfl

/-- C10 (ring vortices). -/
theorem C10_ring (points br fr fl bl : List V3) (strengths : List ℝ) (ages : Option (List ℝ)) (nu : ℝ)
    (h : Aligned br fr fl bl strengths ages) :
    collapsedRing points br fr fl bl strengths ages nu
      = (expandedRing points br fr fl bl strengths ages nu).map List.sum := by
  unfold collapsedRing expandedRing
  rw [expandedLegs_sum]
  intro l hl
  simp at hl
  rcases hl with rfl | rfl | rfl | rfl <;> apply segs_length <;>
    first | exact h.br | exact h.fr | exact h.fl | exact h.bl | exact h.ages | rfl

/-- C10 (horseshoe vortices). -/
theorem C10_horseshoe (points br fr fl bl : List V3) (strengths : List ℝ) (ages : Option (List ℝ))
    (nu : ℝ) (h : Aligned br fr fl bl strengths ages) :
    collapsedHorseshoe points br fr fl bl strengths ages nu
      = (expandedHorseshoe points br fr fl bl strengths ages nu).map List.sum := by
  unfold collapsedHorseshoe expandedHorseshoe
  rw [expandedLegs_sum]
  intro l hl
  simp at hl
  rcases hl with rfl | rfl | rfl <;> apply segs_length <;>
    first | exact h.br | exact h.fr | exact h.fl | exact h.bl | exact h.ages | rfl

/-- C10: the collapsed velocity at a point is the sum over the four sides of each ring; the chordwise
function keeps exactly the right and left sides. -/
theorem C10_ring_by_sides (points br fr fl bl : List V3) (strengths : List ℝ) (ages : Option (List ℝ))
    (nu : ℝ) :
    collapsedRing points br fr fl bl strengths ages nu
      = addRow (collapsedRingChordwise points br fr fl bl strengths ages nu)
          (addRow (collapsedLine points fr fl strengths ages nu)
            (collapsedLine points bl br strengths ages nu)) := by
  unfold collapsedRing collapsedRingChordwise
  rw [collapsedLegs_eq, collapsedLegs_eq, collapsedLine_eq, collapsedLine_eq, addRow_map, addRow_map]
  apply List.map_congr_left
  intro p _
  simp
  abel

/-- C10: the order in which vortices are stored is irrelevant. -/
theorem C10_permutation (points o t o' t' : List V3) (ss ss' : List ℝ) (ages ages' : Option (List ℝ))
    (nu : ℝ) (h : (segs o t ss ages).Perm (segs o' t' ss' ages')) :
    collapsedLine points o t ss ages nu = collapsedLine points o' t' ss' ages' nu := by
  rw [collapsedLine_eq, collapsedLine_eq]
  apply List.map_congr_left
  intro p _
  exact (h.map _).sum_eq

/-- C10: each point's velocity does not depend on which other points are evaluated with it. -/
theorem C10_pointwise (points : List V3) (legs : List (List V3 × List V3)) (ss : List ℝ)
    (ages : Option (List ℝ)) (nu : ℝ) (i : ℕ) (p : V3) (hp : points[i]? = some p) :
    (collapsedLegs points legs ss ages nu)[i]? = (collapsedLegs [p] legs ss ages nu)[0]? := by
  rw [collapsedLegs_eq, collapsedLegs_eq]; simp [hp]

/-- A concrete aligned case with two rings and two ages. -/
example : Aligned [⟨1, 1, 0⟩, ⟨1, 2, 0⟩] [⟨0, 1, 0⟩, ⟨0, 2, 0⟩] [⟨0, 0, 0⟩, ⟨0, 1, 0⟩] [⟨1, 0, 0⟩, ⟨1, 1, 0⟩]
    [3, 4] (some [0, 1]) := ⟨rfl, rfl, rfl, rfl, by intro l h; cases h; rfl⟩

/-! ## C11 -/

/-- C11: negating the strength negates the velocity, for any age. -/
theorem C11_odd_in_strength (nu Γ age : ℝ) (A B p : V3) :
    expandedEntry nu ⟨A, B, -Γ, age⟩ p = -expandedEntry nu ⟨A, B, Γ, age⟩ p :=
  expandedEntry_neg_strength nu ⟨A, B, Γ, age⟩ p

/-- C11: reversing the segment negates the velocity, for any age. -/
theorem C11_odd_in_orientation (nu Γ age : ℝ) (A B p : V3) :
    expandedEntry nu ⟨B, A, Γ, age⟩ p = -expandedEntry nu ⟨A, B, Γ, age⟩ p :=
  expandedEntry_swap nu ⟨A, B, Γ, age⟩ p

/-- C11: zero strength induces nothing. -/
theorem C11_zero_strength (nu age : ℝ) (A B p : V3) : expandedEntry nu ⟨A, B, 0, age⟩ p = 0 := by
  rw [expandedEntry_eq]
  split
  · rfl
  · simp [kernelCoeff]

/-- C11: with age zero the velocity is linear in the strength. -/
theorem C11_linear (nu c₁ c₂ Γ₁ Γ₂ : ℝ) (A B p : V3) :
    expandedEntry nu ⟨A, B, c₁ * Γ₁ + c₂ * Γ₂, 0⟩ p
      = c₁ • expandedEntry nu ⟨A, B, Γ₁, 0⟩ p + c₂ • expandedEntry nu ⟨A, B, Γ₂, 0⟩ p := by
  rw [expandedEntry_eq, expandedEntry_eq, expandedEntry_eq]
  have h1 : Cutoff ⟨A, B, c₁ * Γ₁ + c₂ * Γ₂, 0⟩ p ↔ Cutoff ⟨A, B, Γ₁, 0⟩ p := Iff.rfl
  have h2 : Cutoff ⟨A, B, Γ₂, 0⟩ p ↔ Cutoff ⟨A, B, Γ₁, 0⟩ p := Iff.rfl
  by_cases h : Cutoff ⟨A, B, Γ₁, 0⟩ p
  · rw [if_pos (h1.mpr h), if_pos h, if_pos (h2.mpr h)]; simp
  · rw [if_neg (mt h1.mp h), if_neg h, if_neg (mt h2.mp h), smul_smul, smul_smul, ← add_smul]
    congr 1
    simp only [kernelCoeff]
    rw [coreRadius_age_zero _ _ rfl, coreRadius_age_zero _ _ rfl, coreRadius_age_zero _ _ rfl]
    ring

/-- C11: with no ages the velocity field of any set of vortices is linear in the vector of strengths. -/
theorem C11_superposition (points o t : List V3) (s₁ s₂ : List ℝ) (c₁ c₂ nu : ℝ)
    (ht : t.length = o.length) (h1 : s₁.length = o.length) (h2 : s₂.length = o.length) :
    collapsedLine points o t (List.zipWith (fun a b => c₁ * a + c₂ * b) s₁ s₂) none nu
      = List.zipWith (fun u v => c₁ • u + c₂ • v) (collapsedLine points o t s₁ none nu)
          (collapsedLine points o t s₂ none nu) := by
  rw [collapsedLine_eq, collapsedLine_eq, collapsedLine_eq]
  have key : ∀ (o t : List V3) (s₁ s₂ : List ℝ) (p : V3), t.length = o.length → s₁.length = o.length →
      s₂.length = o.length →
      ((segs o t (List.zipWith (fun a b => c₁ * a + c₂ * b) s₁ s₂) none).map fun s => expandedEntry nu s p).sum
        = c₁ • ((segs o t s₁ none).map fun s => expandedEntry nu s p).sum
          + c₂ • ((segs o t s₂ none).map fun s => expandedEntry nu s p).sum := by
    intro o
    induction o with
    | nil => intro t s₁ s₂ p _ _ _; simp [segs]
    | cons a o ih =>
      intro t s₁ s₂ p ht h1 h2
      obtain ⟨b, t, rfl⟩ := List.exists_cons_of_length_eq_add_one ht
      obtain ⟨g₁, s₁, rfl⟩ := List.exists_cons_of_length_eq_add_one h1
      obtain ⟨g₂, s₂, rfl⟩ := List.exists_cons_of_length_eq_add_one h2
      simp at ht h1 h2
      have := ih t s₁ s₂ p ht h1 h2
      simp only [segs, Option.getD_none] at this
      simp only [segs, Option.getD_none, List.length_cons, List.replicate_succ, List.zipWith_cons_cons,
        List.zip_cons_cons, List.map_cons, List.sum_cons, this, C11_linear, smul_add]
      abel
  apply List.ext_getElem
  · simp
  · intro i hi1 hi2
    simp [key o t s₁ s₂ _ ht h1 h2]

/-- Concrete, non-degenerate instance: the field is not identically zero. -/
example : ((⟨0, 0, 0⟩ : V3) - ⟨0, 1, 0⟩).cross (⟨1, 0, 0⟩ - ⟨0, 1, 0⟩) = ⟨0, 0, 1⟩ := by
  ext <;> simp

/-! ## C12 -/

/-- A segment moved by `x ↦ M x + d`. -/
def Seg.move (M : M3) (d : V3) (s : Seg) : Seg :=
  { s with origin := M.mulVec s.origin + d, termination := M.mulVec s.termination + d }

/-- C12: moving a vortex and the point by any isometry `x ↦ M x + d` (`M` orthogonal) transforms the velocity
by `det M • M`: rotations and translations carry it along, reflections also flip its sign. It holds for all
ages, viscosities and points, including points in the cut-off region. -/
theorem C12_isometry (M : M3) (hM : M.IsOrtho) (d : V3) (nu : ℝ) (s : Seg) (p : V3) :
    expandedEntry nu (s.move M d) (M.mulVec p + d) = M.det • M.mulVec (expandedEntry nu s p) := by
  have e1 : (s.move M d).origin - (M.mulVec p + d) = M.mulVec (s.origin - p) := by
    simp only [Seg.move, M3.mulVec_sub]; abel
  have e2 : (s.move M d).termination - (M.mulVec p + d) = M.mulVec (s.termination - p) := by
    simp only [Seg.move, M3.mulVec_sub]; abel
  have e3 : (s.move M d).termination - (s.move M d).origin = M.mulVec (s.termination - s.origin) := by
    simp only [Seg.move, M3.mulVec_sub]; abel
  have hdet : |M.det| = 1 := by
    have := congrArg M3.det hM
    rw [M3.det_mul, M3.det_transpose] at this
    have h1 : M3.one.det = 1 := by simp [M3.det, M3.one, V3.dot]
    rw [h1] at this
    exact (abs_eq (by norm_num)).mpr (mul_self_eq_one_iff.mp this)
  have ec : ((s.move M d).origin - (M.mulVec p + d)).cross ((s.move M d).termination - (M.mulVec p + d))
      = M.det • M.mulVec ((s.origin - p).cross (s.termination - p)) := by
    rw [e1, e2, hM.cross]
  have en : (((s.move M d).origin - (M.mulVec p + d)).cross
      ((s.move M d).termination - (M.mulVec p + d))).norm
      = ((s.origin - p).cross (s.termination - p)).norm := by
    rw [ec, V3.norm_smul, hdet, one_mul, hM.norm]
  have hcut : Cutoff (s.move M d) (M.mulVec p + d) ↔ Cutoff s p := by
    unfold Cutoff
    rw [en, e1, e2, hM.norm, hM.norm]
  rw [expandedEntry_eq, expandedEntry_eq]
  by_cases h : Cutoff s p
  · rw [if_pos (hcut.mpr h), if_pos h]; simp
  · rw [if_neg (mt hcut.mp h), if_neg h, M3.mulVec_smul, ec, smul_comm]
    congr 2
    have hr : coreRadius nu (s.move M d) = coreRadius nu s := rfl
    have hs : (s.move M d).strength = s.strength := rfl
    unfold kernelCoeff
    rw [en, e3, e1, e2, hM.norm, hM.norm, hM.norm, hM.dot, hr, hs]

/-- C12: rotations. -/
theorem C12_rotation (M : M3) (hM : M.IsRot) (d : V3) (nu : ℝ) (s : Seg) (p : V3) :
    expandedEntry nu (s.move M d) (M.mulVec p + d) = M.mulVec (expandedEntry nu s p) := by
  rw [C12_isometry M hM.1, hM.2, one_smul]

/-- C12: translations leave the velocity unchanged. -/
theorem C12_translation (d : V3) (nu : ℝ) (A B p : V3) (Γ age : ℝ) :
    expandedEntry nu ⟨A + d, B + d, Γ, age⟩ (p + d) = expandedEntry nu ⟨A, B, Γ, age⟩ p := by
  have h1 : M3.one.IsRot := by
    constructor
    · unfold M3.IsOrtho; rw [M3.mul_one]; rfl
    · simp [M3.det, M3.one, V3.dot]
  have := C12_rotation M3.one h1 d nu ⟨A, B, Γ, age⟩ p
  simpa [Seg.move] using this

/-- C12 (whole fields): for any number of line vortices and points, an isometry acts on all velocities. -/
theorem C12_field (M : M3) (hM : M.IsOrtho) (d : V3) (points o t : List V3) (ss : List ℝ)
    (ages : Option (List ℝ)) (nu : ℝ) :
    let T := fun x => M.mulVec x + d
    collapsedLine (points.map T) (o.map T) (t.map T) ss ages nu
      = (collapsedLine points o t ss ages nu).map fun v => M.det • M.mulVec v := by
  intro T
  have hs : segs (o.map T) (t.map T) ss ages = (segs o t ss ages).map (Seg.move M d) := by
    unfold segs
    apply List.ext_getElem
    · simp
    · intro i h1 h2
      simp [Seg.move, T]
  rw [collapsedLine_eq, collapsedLine_eq, hs, List.map_map, List.map_map]
  apply List.map_congr_left
  intro p _
  simp only [Function.comp, List.map_map]
  have : ∀ l : List Seg, (l.map ((fun s => expandedEntry nu s (T p)) ∘ Seg.move M d)).sum
      = M.det • M.mulVec (l.map fun s => expandedEntry nu s p).sum := by
    intro l
    induction l with
    | nil => simp
    | cons s l ih =>
      have h := C12_isometry M hM d nu s p
      simp only [List.map_cons, List.sum_cons, Function.comp, ih, M3.mulVec_add, smul_add]
      rw [← h]
  exact this _

/-- A concrete isometry that is not a rotation: the mirror in the plane y = 0. -/
example : (⟨⟨1, 0, 0⟩, ⟨0, -1, 0⟩, ⟨0, 0, 1⟩⟩ : M3).IsOrtho ∧
    (⟨⟨1, 0, 0⟩, ⟨0, -1, 0⟩, ⟨0, 0, 1⟩⟩ : M3).det = -1 := by
  constructor
  · unfold M3.IsOrtho
    ext <;> simp [M3.mul, M3.mulVec, M3.transpose, V3.dot, M3.one]
  · simp [M3.det, V3.dot]

/-! ## C13 -/

/-- C13: whenever the main branch of the kernel is taken, its denominator is positive, and for non-negative
age and viscosity the argument of the core radius' square root is non-negative. -/
theorem C13_no_division_by_zero (nu : ℝ) (s : Seg) (p : V3)
    (hbranch : ¬ ((s.origin - p).norm < eps ∨ (s.termination - p).norm < eps ∨
      ((s.origin - p).cross (s.termination - p)).norm ^ 2 < eps)) :
    0 < (s.origin - p).norm * (s.termination - p).norm *
      (((s.origin - p).cross (s.termination - p)).norm ^ 2
        + (s.termination - s.origin).norm ^ 2 * coreRadius nu s ^ 2) := by
  push Not at hbranch
  obtain ⟨h1, h2, h3⟩ := hbranch
  have he := eps_pos
  have := lt_of_lt_of_le he h1
  have := lt_of_lt_of_le he h2
  have := lt_of_lt_of_le he h3
  positivity

theorem C13_core_radius_defined (nu Γ age : ℝ) (hnu : 0 ≤ nu) (hage : 0 ≤ age) :
    0 ≤ lamb * (nu + squire * |Γ|) * age := by
  have : 0 ≤ lamb := by unfold lamb; norm_num
  have : 0 ≤ squire := by unfold squire; norm_num
  positivity

/-- C13: a point on the (infinite) line through the segment gets exactly zero velocity; in particular the end
points and the centre of the segment do. -/
theorem C13_on_line (nu : ℝ) (A B : V3) (Γ age k : ℝ) :
    expandedEntry nu ⟨A, B, Γ, age⟩ (A + k • (B - A)) = 0 := by
  rw [expandedEntry_eq, if_pos]
  right; right
  have : (A - (A + k • (B - A))).cross (B - (A + k • (B - A))) = 0 := by
    ext <;> simp <;> ring
  simp only [this, V3.norm_zero]
  have := eps_pos
  simpa using this

theorem C13_end_points (nu : ℝ) (A B : V3) (Γ age : ℝ) :
    expandedEntry nu ⟨A, B, Γ, age⟩ A = 0 ∧ expandedEntry nu ⟨A, B, Γ, age⟩ B = 0 ∧
    expandedEntry nu ⟨A, B, Γ, age⟩ ((1 / 2 : ℝ) • (A + B)) = 0 := by
  refine ⟨?_, ?_, ?_⟩
  · simpa using C13_on_line nu A B Γ age 0
  · simpa using C13_on_line nu A B Γ age 1
  · have := C13_on_line nu A B Γ age (1 / 2)
    rwa [show A + (1 / 2 : ℝ) • (B - A) = (1 / 2 : ℝ) • (A + B) by ext <;> simp <;> ring] at this

/-- C13: a segment of zero length induces nothing anywhere. -/
theorem C13_zero_length (nu : ℝ) (A p : V3) (Γ age : ℝ) : expandedEntry nu ⟨A, A, Γ, age⟩ p = 0 := by
  rw [expandedEntry_eq]
  split
  · rfl
  · simp

/-- A concrete point where the main branch is taken. -/
example : ¬ (((⟨0, 0, 0⟩ : V3) - ⟨0, 1, 0⟩).norm < eps ∨ ((⟨1, 0, 0⟩ : V3) - ⟨0, 1, 0⟩).norm < eps ∨
    (((⟨0, 0, 0⟩ : V3) - ⟨0, 1, 0⟩).cross (⟨1, 0, 0⟩ - ⟨0, 1, 0⟩)).norm ^ 2 < eps) := by
  have h : eps ≤ 1 := by unfold eps; norm_num
  push Not
  refine ⟨?_, ?_, ?_⟩
  · simpa [V3.norm, V3.dot] using h
  · have : (1 : ℝ) ≤ √(1 + 1) := by rw [Real.one_le_sqrt]; norm_num
    simp [V3.norm, V3.dot]; linarith
  · simpa [V3.norm, V3.dot] using h

/-! ## C14 -/

theorem core_sq (nu : ℝ) (s : Seg) (hnu : 0 ≤ nu) (hage : 0 ≤ s.age) :
    coreRadius nu s ^ 2 = 4 * (lamb * (nu + squire * |s.strength|) * s.age) := by
  unfold coreRadius
  rw [mul_pow, Real.sq_sqrt (C13_core_radius_defined nu s.strength s.age hnu hage)]
  norm_num

/-- Comparison of two cores: the larger core's velocity is the smaller core's times a factor in (0, 1]. -/
theorem attenuate (nu nu' : ℝ) (s s' : Seg) (p : V3)
    (ho : s'.origin = s.origin) (ht : s'.termination = s.termination) (hg : s'.strength = s.strength)
    (hc : coreRadius nu s ^ 2 ≤ coreRadius nu' s' ^ 2) :
    ∃ k : ℝ, 0 < k ∧ k ≤ 1 ∧ expandedEntry nu' s' p = k • expandedEntry nu s p := by
  have hcut : Cutoff s' p ↔ Cutoff s p := by unfold Cutoff; rw [ho, ht]
  by_cases h : Cutoff s p
  · refine ⟨1, one_pos, le_refl _, ?_⟩
    rw [expandedEntry_eq, expandedEntry_eq, if_pos (hcut.mpr h), if_pos h, smul_zero]
  · have hd := C13_no_division_by_zero nu s p h
    have hb := h
    unfold Cutoff at hb
    push Not at hb
    have he := eps_pos
    have h1 := lt_of_lt_of_le he hb.1
    have h2 := lt_of_lt_of_le he hb.2.1
    have h3 := lt_of_lt_of_le he hb.2.2
    set N := ((s.origin - p).cross (s.termination - p)).norm ^ 2 with hN
    set L := (s.termination - s.origin).norm ^ 2 with hL
    have hL0 : 0 ≤ L := by rw [hL]; positivity
    have hle : N + L * coreRadius nu s ^ 2 ≤ N + L * coreRadius nu' s' ^ 2 := by
      have := mul_le_mul_of_nonneg_left hc hL0; linarith
    have hpos : 0 < N + L * coreRadius nu s ^ 2 := by positivity
    have hpos' : 0 < N + L * coreRadius nu' s' ^ 2 := lt_of_lt_of_le hpos hle
    refine ⟨(N + L * coreRadius nu s ^ 2) / (N + L * coreRadius nu' s' ^ 2), by positivity,
      (div_le_one hpos').mpr hle, ?_⟩
    rw [expandedEntry_eq, expandedEntry_eq, if_neg (mt hcut.mp h), if_neg h, smul_smul, ho, ht]
    congr 1
    unfold kernelCoeff
    rw [ho, ht, hg, ← hN, ← hL]
    have := Real.pi_pos
    field_simp

/-- C14: the older vortex induces the younger one's velocity times a factor in (0, 1]. -/
theorem C14_age_attenuates (nu : ℝ) (A B p : V3) (Γ age age' : ℝ) (hnu : 0 ≤ nu) (h0 : 0 ≤ age)
    (h : age ≤ age') :
    ∃ k : ℝ, 0 < k ∧ k ≤ 1 ∧
      expandedEntry nu ⟨A, B, Γ, age'⟩ p = k • expandedEntry nu ⟨A, B, Γ, age⟩ p := by
  apply attenuate nu nu ⟨A, B, Γ, age⟩ ⟨A, B, Γ, age'⟩ p rfl rfl rfl
  rw [core_sq _ _ hnu h0, core_sq _ _ hnu (le_trans h0 h)]
  have := C13_core_radius_defined nu Γ 1 hnu zero_le_one
  rw [mul_one] at this
  have := mul_le_mul_of_nonneg_left h this
  simp only
  linarith

/-- C14: a more viscous fluid attenuates more. -/
theorem C14_viscosity_attenuates (nu nu' : ℝ) (A B p : V3) (Γ age : ℝ) (hnu : 0 ≤ nu) (h : nu ≤ nu')
    (hage : 0 ≤ age) :
    ∃ k : ℝ, 0 < k ∧ k ≤ 1 ∧
      expandedEntry nu' ⟨A, B, Γ, age⟩ p = k • expandedEntry nu ⟨A, B, Γ, age⟩ p := by
  apply attenuate nu nu' ⟨A, B, Γ, age⟩ ⟨A, B, Γ, age⟩ p rfl rfl rfl
  rw [core_sq _ _ hnu hage, core_sq _ _ (le_trans hnu h) hage]
  have hl : 0 ≤ lamb := by unfold lamb; norm_num
  have h1 : nu + squire * |Γ| ≤ nu' + squire * |Γ| := by linarith
  have := mul_le_mul_of_nonneg_right (mul_le_mul_of_nonneg_left h1 hl) hage
  linarith

/-- C14: hence the speed never grows with age. -/
theorem C14_speed_decreases (nu : ℝ) (A B p : V3) (Γ age age' : ℝ) (hnu : 0 ≤ nu) (h0 : 0 ≤ age)
    (h : age ≤ age') :
    (expandedEntry nu ⟨A, B, Γ, age'⟩ p).norm ≤ (expandedEntry nu ⟨A, B, Γ, age⟩ p).norm := by
  obtain ⟨k, hk0, hk1, he⟩ := C14_age_attenuates nu A B p Γ age age' hnu h0 h
  rw [he, V3.norm_smul, abs_of_pos hk0]
  exact mul_le_of_le_one_left (V3.norm_nonneg _) hk1

example : (0 : ℝ) ≤ 15.06e-6 ∧ (0 : ℝ) ≤ 0.01 ∧ (0.01 : ℝ) ≤ 0.02 := by norm_num

/-! ## C15 -/

/-- C15: two rings side by side with equal strength and age (the right edge of the first being the left edge
of the second) act exactly as the closed loop around both: the shared edge cancels at every point. -/
theorem C15_side_by_side (points : List V3) (br₁ fr₁ fl₁ bl₁ br₂ fr₂ : V3) (Γ age nu : ℝ) :
    collapsedRing points [br₁, br₂] [fr₁, fr₂] [fl₁, fr₁] [bl₁, br₁] [Γ, Γ] (some [age, age]) nu
      = collapsedLine points [br₂, fr₂, fr₁, fl₁, bl₁, br₁] [fr₂, fr₁, fl₁, bl₁, br₁, br₂]
          [Γ, Γ, Γ, Γ, Γ, Γ] (some [age, age, age, age, age, age]) nu := by
  unfold collapsedRing
  rw [collapsedLegs_eq, collapsedLine_eq]
  apply List.map_congr_left
  intro p _
  simp only [segs, Option.getD_some, List.zip_cons_cons, List.zip_nil_left, List.zipWith_cons_cons,
    List.zipWith_nil_left, List.map_cons, List.map_nil, List.sum_cons, List.sum_nil]
  rw [C11_odd_in_orientation nu Γ age br₁ fr₁ p]
  abel

/-- C15: one ring behind the other (the back edge of the first being the front edge of the second). -/
theorem C15_one_behind_the_other (points : List V3) (br₁ fr₁ fl₁ bl₁ br₂ bl₂ : V3) (Γ age nu : ℝ) :
    collapsedRing points [br₁, br₂] [fr₁, br₁] [fl₁, bl₁] [bl₁, bl₂] [Γ, Γ] (some [age, age]) nu
      = collapsedLine points [br₂, br₁, fr₁, fl₁, bl₁, bl₂] [br₁, fr₁, fl₁, bl₁, bl₂, br₂]
          [Γ, Γ, Γ, Γ, Γ, Γ] (some [age, age, age, age, age, age]) nu := by
  unfold collapsedRing
  rw [collapsedLegs_eq, collapsedLine_eq]
  apply List.map_congr_left
  intro p _
  simp only [segs, Option.getD_some, List.zip_cons_cons, List.zip_nil_left, List.zipWith_cons_cons,
    List.zipWith_nil_left, List.map_cons, List.map_nil, List.sum_cons, List.sum_nil]
  rw [C11_odd_in_orientation nu Γ age br₁ bl₁ p]
  abel

/-- C15: a trailing-edge ring and the horseshoe of the same strength hung on its back edge (finite leg from the
ring's back right to its back left vertex) act exactly as the open filament far right → back right →
front right → front left → back left → far left: there is no filament left along the trailing edge. -/
theorem C15_ring_plus_horseshoe (points : List V3) (br fr fl bl farRight farLeft : V3) (Γ nu : ℝ) :
    addRow (collapsedRing points [br] [fr] [fl] [bl] [Γ] none nu)
        (collapsedHorseshoe points [farRight] [br] [bl] [farLeft] [Γ] none nu)
      = collapsedLine points [farRight, br, fr, fl, bl] [br, fr, fl, bl, farLeft] [Γ, Γ, Γ, Γ, Γ] none nu := by
  unfold collapsedRing collapsedHorseshoe
  rw [collapsedLegs_eq, collapsedLegs_eq, collapsedLine_eq, addRow_map]
  apply List.map_congr_left
  intro p _
  simp only [segs, Option.getD_none, List.length_cons, List.length_nil, List.replicate, List.zip_cons_cons,
    List.zip_nil_left, List.zipWith_cons_cons, List.zipWith_nil_left, List.map_cons, List.map_nil,
    List.sum_cons, List.sum_nil]
  rw [C11_odd_in_orientation nu Γ 0 br bl p]
  abel

/-- C15: a ring or horseshoe whose vertices all coincide induces nothing, whatever its strength. (The steady
ring solver passes such an all-zero horseshoe for every panel that is not at the trailing edge.) -/
theorem C15_degenerate (points : List V3) (v : V3) (Γ nu : ℝ) (ages : Option (List ℝ)) :
    collapsedHorseshoe points [v] [v] [v] [v] [Γ] ages nu = List.replicate points.length 0 ∧
    collapsedRing points [v] [v] [v] [v] [Γ] ages nu = List.replicate points.length 0 := by
  have hz : ∀ p, ((segs [v] [v] [Γ] ages).map fun s => expandedEntry nu s p).sum = 0 := by
    intro p
    unfold segs
    cases ages with
    | none => simp [C13_zero_length]
    | some l => cases l <;> simp [C13_zero_length]
  constructor
  · unfold collapsedHorseshoe
    rw [collapsedLegs_eq]
    simp [hz]
  · unfold collapsedRing
    rw [collapsedLegs_eq]
    simp [hz]

end Ptera
