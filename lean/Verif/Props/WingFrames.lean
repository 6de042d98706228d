import Verif.Props.Construction
import Verif.Props.Frames

/-!
# Property C22: wing and cross-section frames
-/

namespace Ptera

/-- `a`, `b`, `c` is a right-handed orthonormal triad. -/
structure Triad (a b c : V3) : Prop where
  unit_a : a.norm = 1
  unit_b : b.norm = 1
  unit_c : c.norm = 1
  ab : a.dot b = 0
  bc : b.dot c = 0
  ca : c.dot a = 0
  right_handed : a.cross b = c

theorem triad_of (a b : V3) (ha : a.norm = 1) (hb : b.norm = 1) (h : a.dot b = 0) : Triad a b (a.cross b) := by
  refine ⟨ha, hb, ?_, h, by simp, by simp, rfl⟩
  have h1 := V3.norm_cross_sq a b
  rw [ha, hb, h] at h1
  have h2 := V3.norm_nonneg (a.cross b)
  nlinarith

/-- The normal check of `Wing(...)` makes the chordwise vector orthogonal to every section's normal. -/
theorem compatible_normal (n u ns : V3) (hn : n ≠ 0) (hu : u.dot n = 0)
    (h : (n.cross ns).cross u = 0) : u.dot ns = 0 := by
  have e : (n.cross ns).cross u = (n.dot u) • ns - (ns.dot u) • n := by
    ext <;> simp [V3.dot] <;> ring
  rw [e, V3.dot_comm n u, hu] at h
  by_contra hne
  apply hn
  rw [V3.dot_comm] at hne
  have h' : (ns.dot u) • n = 0 := by
    have : (0 : ℝ) • ns - (ns.dot u) • n = 0 := h
    ext
    · have := congrArg V3.x this; simpa using this
    · have := congrArg V3.y this; simpa using this
    · have := congrArg V3.z this; simpa using this
  ext
  · have := congrArg V3.x h'; simpa [hne] using this
  · have := congrArg V3.y h'; simpa [hne] using this
  · have := congrArg V3.z h'; simpa [hne] using this

/-- C22: the (chordwise, normal, up) triad of an accepted wing with unit vectors. -/
theorem C22_wing_frame (sections : List WingCrossSection) (le n : V3) (sym : Bool) (u : V3) (m : ℕ)
    (sp : String) (w : Wing) (h : Wing.create sections le n sym u m sp = .ok w)
    (hn : n.norm = 1) (hu : u.norm = 1) : Triad u n w.unitUp := by
  obtain ⟨hs, ha⟩ := Wing.create_ok sections le n sym u m sp w h
  have hp := ha.perp
  rw [hs] at hp
  have := triad_of u n hu hn hp
  unfold Wing.unitUp
  rw [hs]
  exact this

/-- C22: the (chordwise, normal, up) triad of each section after twist; the trailing edge is one chord length from
the leading edge, in the section's plane, for every twist. -/
theorem C22_section_frame (sections : List WingCrossSection) (le n : V3) (sym : Bool) (u : V3) (m : ℕ)
    (sp : String) (w : Wing) (h : Wing.create sections le n sym u m sp = .ok w)
    (hn : n ≠ 0) (hu : u.norm = 1) (s : WingCrossSection) (hs : s ∈ w.sections) (hsn : s.unitNormal.norm = 1) :
    Triad s.unitChordwise s.unitNormal s.unitUp ∧
    (s.trailingEdge - s.leadingEdge).norm = |s.chord| ∧
    (s.trailingEdge - s.leadingEdge).dot s.unitNormal = 0 := by
  obtain ⟨hsp, ha⟩ := Wing.create_ok sections le n sym u m sp w h
  rw [ha.stored] at hs
  unfold withChordwise at hs
  obtain ⟨t, ht, rfl⟩ := List.mem_map.mp hs
  have hp := ha.perp
  have hcross := ha.normals t ht
  rw [hsp] at hp hcross hsn ⊢
  simp only at hp hcross hsn ⊢
  have hperp := compatible_normal n u t.unitNormal hn hp hcross
  have hnd : t.unitNormal.dot t.unitNormal = 1 := by rw [← V3.norm_sq, hsn]; norm_num
  have hone : (1 / t.unitNormal.norm) • t.unitNormal = t.unitNormal := by
    rw [hsn]; ext <;> simp
  set c := WingCrossSection.unitChordwise { t with wingUnitChordwise := u } with hc
  have hrot := rodrigues_isRot (t.twist * Real.pi / 180) t.unitNormal hnd
  have hce : c = (rodrigues (t.twist * Real.pi / 180) t.unitNormal).mulVec u := by
    rw [hc]
    unfold WingCrossSection.unitChordwise angleAxisRotationMatrix
    simp only [Bool.false_eq_true, if_false, hone]
  have hcn : c.norm = 1 := by rw [hce, hrot.1.norm, hu]
  have hcd : c.dot t.unitNormal = 0 := by
    have h1 := hrot.1.dot u t.unitNormal
    rw [rodrigues_fixes (t.twist * Real.pi / 180) t.unitNormal hnd, hperp] at h1
    rw [hce]; exact h1
  have hdiff : WingCrossSection.trailingEdge { t with wingUnitChordwise := u } - t.leadingEdge = t.chord • c := by
    unfold WingCrossSection.trailingEdge
    ext <;> simp [hc]
  refine ⟨triad_of c t.unitNormal hcn hsn hcd, ?_, ?_⟩
  · rw [hdiff, V3.norm_smul, hcn, mul_one]
  · rw [hdiff, V3.smul_dot, hcd, mul_zero]

/-- C22: an untwisted section's chordwise vector is the wing's. -/
theorem C22_untwisted (sections : List WingCrossSection) (le n : V3) (sym : Bool) (u : V3) (m : ℕ)
    (sp : String) (w : Wing) (h : Wing.create sections le n sym u m sp = .ok w)
    (s : WingCrossSection) (hs : s ∈ w.sections) (hsn : s.unitNormal.norm = 1) (htw : s.twist = 0) :
    s.unitChordwise = u := by
  obtain ⟨hsp, ha⟩ := Wing.create_ok sections le n sym u m sp w h
  rw [ha.stored] at hs
  unfold withChordwise at hs
  obtain ⟨t, ht, rfl⟩ := List.mem_map.mp hs
  simp only at htw hsn
  have hone : (1 / t.unitNormal.norm) • t.unitNormal = t.unitNormal := by
    rw [hsn]; ext <;> simp
  unfold WingCrossSection.unitChordwise angleAxisRotationMatrix
  simp only [Bool.false_eq_true, if_false, htw]
  rw [zero_mul, zero_div, rodrigues_zero, M3.one_mulVec, hsp]

/-- C22: positive twist pitches the nose up: for twist in (0, 180) the chordwise vector (leading edge to trailing
edge) turns towards down, i.e. has a negative component along the untwisted up direction. -/
theorem C22_positive_twist_nose_up (sections : List WingCrossSection) (le n : V3) (sym : Bool) (u : V3) (m : ℕ)
    (sp : String) (w : Wing) (h : Wing.create sections le n sym u m sp = .ok w)
    (hn : n ≠ 0) (hu : u.norm = 1) (s : WingCrossSection) (hs : s ∈ w.sections) (hsn : s.unitNormal.norm = 1)
    (htw : 0 < s.twist) (htw' : s.twist < 180) :
    s.unitChordwise.dot (u.cross s.unitNormal) < 0 := by
  obtain ⟨hsp, ha⟩ := Wing.create_ok sections le n sym u m sp w h
  rw [ha.stored] at hs
  unfold withChordwise at hs
  obtain ⟨t, ht, rfl⟩ := List.mem_map.mp hs
  have hp := ha.perp
  have hcross := ha.normals t ht
  rw [hsp] at hp hcross ⊢
  simp only at hp hcross hsn htw htw' ⊢
  have hperp := compatible_normal n u t.unitNormal hn hp hcross
  have hone : (1 / t.unitNormal.norm) • t.unitNormal = t.unitNormal := by
    rw [hsn]; ext <;> simp
  have hsin : 0 < Real.sin (t.twist * Real.pi / 180) := by
    apply Real.sin_pos_of_pos_of_lt_pi
    · have := Real.pi_pos; positivity
    · have := Real.pi_pos; nlinarith
  have hnd : t.unitNormal.dot t.unitNormal = 1 := by rw [← V3.norm_sq, hsn]; norm_num
  have hud : u.dot u = 1 := by rw [← V3.norm_sq, hu]; norm_num
  unfold WingCrossSection.unitChordwise angleAxisRotationMatrix
  simp only [Bool.false_eq_true, if_false, hone]
  rw [rodrigues_mulVec]
  rw [V3.add_dot, V3.add_dot, V3.smul_dot, V3.smul_dot, V3.smul_dot, V3.dot_cross_self, V3.dot_cross_self']
  have : (t.unitNormal.cross u).dot (u.cross t.unitNormal) = -1 := by
    rw [V3.cross_anticomm t.unitNormal u, V3.neg_dot, V3.cross_dot_cross, hnd, hud, hperp]; norm_num
  rw [this]; linarith

/-- Non-vacuity: a twisted section of an accepted wing with unit vectors. -/
example : ∃ w, Wing.create [plateSection 0 2 3 0 "symmetric" 4 "cosine",
      plateSection ⟨1, 3, 0⟩ 1.5 0 0 "symmetric" 2 "uniform"] ⟨5, 0, 1⟩ ⟨0, 1, 0⟩ true ⟨1, 0, 0⟩ 6 "uniform" = .ok w ∧
    (⟨0, 1, 0⟩ : V3).norm = 1 ∧ (⟨1, 0, 0⟩ : V3).norm = 1 ∧
    ∃ s ∈ w.sections, s.twist = 3 ∧ s.unitNormal.norm = 1 ∧ s.chord = 2 := by
  obtain ⟨w, hw⟩ := plateWing_accepted [plateSection 0 2 3 0 "symmetric" 4 "cosine",
      plateSection ⟨1, 3, 0⟩ 1.5 0 0 "symmetric" 2 "uniform"] true 6 (by norm_num) "uniform" (by simp) (by simp)
    (by intro r hr; simp at hr; rw [← hr]; rfl)
    (by
      intro s hs
      simp only [List.mem_cons, List.not_mem_nil, or_false] at hs
      rcases hs with rfl | rfl <;> exact ⟨_, _, _, _, _, _, _, rfl, by norm_num⟩) ⟨5, 0, 1⟩
  obtain ⟨hs, ha⟩ := Wing.create_ok _ _ _ _ _ _ _ w hw
  refine ⟨w, hw, by simp [V3.norm, V3.dot], by simp [V3.norm, V3.dot], ?_⟩
  refine ⟨{ plateSection 0 2 3 0 "symmetric" 4 "cosine" with wingUnitChordwise := w.spec.unitChordwise }, ?_, rfl,
    by simp [plateSection, V3.norm, V3.dot], rfl⟩
  rw [ha.stored]; simp [withChordwise]

end Ptera
