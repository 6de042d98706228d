import Verif.Props.WingFrames
import Verif.Props.PanelGeometry

/-!
# Property C23: span, areas and mean chords

`trapezoidArea w` is the planform's trapezoidal area: the sum over wing sections of (spanwise extent along the
wing's normal) times (mean of the two chords), doubled for a symmetric wing. `C23_projected_area_is_trapezoidal`
(`Verif/Props/Planform.lean`) shows when `projected_area` equals it.
-/

namespace Ptera

/-- Spanwise extent of a wing section: length of the leading-edge vector's component along the normal. -/
noncomputable def sectionSpan (n : V3) (s : WingCrossSection × WingCrossSection) : ℝ :=
  |(s.2.leadingEdge - s.1.leadingEdge).dot n|

/-- The trapezoidal planform area. -/
noncomputable def trapezoidArea (w : Wing) : ℝ :=
  (if w.spec.symmetric then 2 else 1) *
    ((List.zip w.sections w.sections.tail).map fun s =>
      sectionSpan w.spec.unitNormal s * ((s.1.chord + s.2.chord) / 2)).sum

theorem Wing.projectedSpan_unit (n v : V3) (hn : n.norm = 1) : Wing.projectedSpan n v = |v.dot n| := by
  unfold Wing.projectedSpan; rw [V3.norm_smul, hn, mul_one]

theorem list_sum_le {α : Type*} (l : List α) (f g : α → ℝ) (h : ∀ x ∈ l, f x ≤ g x) :
    (l.map f).sum ≤ (l.map g).sum := by
  induction l with
  | nil => simp
  | cons a l ih =>
    simp only [List.map_cons, List.sum_cons]
    have := ih fun x hx => h x (by simp [hx])
    have := h a (by simp)
    linarith

theorem list_sum_mul (l : List (WingCrossSection × WingCrossSection)) (f : _ → ℝ) (c : ℝ) :
    (l.map fun x => c * f x).sum = c * (l.map f).sum := by
  induction l with
  | nil => simp
  | cons a l ih => simp only [List.map_cons, List.sum_cons, ih]; ring

/-- C23: the mean aerodynamic chord lies between the smallest and the largest chord. -/
theorem C23_mac_between (w : Wing) (lo hi : ℝ) (hlo : 0 < lo) (hn : w.spec.unitNormal.norm = 1)
    (hc : ∀ s ∈ w.sections, lo ≤ s.chord ∧ s.chord ≤ hi)
    (harea : w.projectedArea = trapezoidArea w) (hpos : 0 < trapezoidArea w) :
    lo ≤ w.meanAerodynamicChord ∧ w.meanAerodynamicChord ≤ hi := by
  set l := List.zip w.sections w.sections.tail with hl
  have hmem : ∀ s ∈ l, (lo ≤ s.1.chord ∧ s.1.chord ≤ hi) ∧ (lo ≤ s.2.chord ∧ s.2.chord ≤ hi) := by
    intro s hs
    obtain ⟨h1, h2⟩ := List.of_mem_zip hs
    exact ⟨hc _ h1, hc _ (List.mem_of_mem_tail h2)⟩
  set A := (l.map fun s => sectionSpan w.spec.unitNormal s * ((s.1.chord + s.2.chord) / 2)).sum with hA
  set I := (l.map (Wing.macTerm w.spec.unitNormal)).sum with hI
  have hb : ∀ s ∈ l, lo * (sectionSpan w.spec.unitNormal s * ((s.1.chord + s.2.chord) / 2))
      ≤ Wing.macTerm w.spec.unitNormal s ∧
      Wing.macTerm w.spec.unitNormal s ≤ hi * (sectionSpan w.spec.unitNormal s * ((s.1.chord + s.2.chord) / 2)) := by
    intro s hs
    obtain ⟨⟨a1, a2⟩, b1, b2⟩ := hmem s hs
    unfold Wing.macTerm
    rw [Wing.projectedSpan_unit _ _ hn]
    have hs0 : 0 ≤ sectionSpan w.spec.unitNormal s := abs_nonneg _
    have e : |(s.2.leadingEdge - s.1.leadingEdge).dot w.spec.unitNormal| = sectionSpan w.spec.unitNormal s := rfl
    rw [e]
    constructor
    · have : lo * ((s.1.chord + s.2.chord) / 2) ≤ (s.1.chord ^ 2 + s.1.chord * s.2.chord + s.2.chord ^ 2) / 3 := by
        nlinarith [sq_nonneg (s.1.chord - s.2.chord)]
      calc _ = sectionSpan w.spec.unitNormal s * (lo * ((s.1.chord + s.2.chord) / 2)) := by ring
        _ ≤ sectionSpan w.spec.unitNormal s * ((s.1.chord ^ 2 + s.1.chord * s.2.chord + s.2.chord ^ 2) / 3) :=
          mul_le_mul_of_nonneg_left this hs0
        _ = _ := by ring
    · have : (s.1.chord ^ 2 + s.1.chord * s.2.chord + s.2.chord ^ 2) / 3 ≤ hi * ((s.1.chord + s.2.chord) / 2) := by
        nlinarith [mul_nonneg (sub_nonneg.mpr a2) (sub_nonneg.mpr a1),
          mul_nonneg (sub_nonneg.mpr b2) (sub_nonneg.mpr b1), mul_nonneg (sub_nonneg.mpr a2) (sub_nonneg.mpr b1),
          mul_nonneg (sub_nonneg.mpr b2) (sub_nonneg.mpr a1)]
      calc _ = sectionSpan w.spec.unitNormal s * ((s.1.chord ^ 2 + s.1.chord * s.2.chord + s.2.chord ^ 2) / 3) := by
            ring
        _ ≤ sectionSpan w.spec.unitNormal s * (hi * ((s.1.chord + s.2.chord) / 2)) :=
          mul_le_mul_of_nonneg_left this hs0
        _ = _ := by ring
  have h1 : lo * A ≤ I := by
    rw [hA, ← list_sum_mul]; exact list_sum_le _ _ _ fun s hs => (hb s hs).1
  have h2 : I ≤ hi * A := by
    rw [hA, ← list_sum_mul]; exact list_sum_le _ _ _ fun s hs => (hb s hs).2
  have hk : w.meanAerodynamicChord = I / A := by
    unfold Wing.meanAerodynamicChord
    rw [harea]
    unfold trapezoidArea
    by_cases hsym : w.spec.symmetric = true
    · simp only [if_pos hsym]
      rw [mul_div_mul_left _ _ two_ne_zero]
    · simp only [if_neg hsym, one_mul, ← hl, ← hI, ← hA]
  have hA0 : 0 < A := by
    unfold trapezoidArea at hpos
    by_cases hsym : w.spec.symmetric = true
    · simp only [if_pos hsym] at hpos; linarith
    · simp only [if_neg hsym, one_mul] at hpos; exact hpos
  rw [hk, le_div_iff₀ hA0, div_le_iff₀ hA0]
  exact ⟨h1, h2⟩

/-- C23: a rectangular wing's mean aerodynamic chord is its chord. -/
theorem C23_mac_rectangular (w : Wing) (c : ℝ) (hc0 : 0 < c) (hn : w.spec.unitNormal.norm = 1)
    (hc : ∀ s ∈ w.sections, s.chord = c)
    (harea : w.projectedArea = trapezoidArea w) (hpos : 0 < trapezoidArea w) :
    w.meanAerodynamicChord = c := by
  have := C23_mac_between w c c hc0 hn (fun s hs => by rw [hc s hs]; simp) harea hpos
  linarith [this.1, this.2]

theorem cauchy_list (l : List (WingCrossSection × WingCrossSection)) (b m : _ → ℝ) (hb : ∀ s ∈ l, 0 ≤ b s) :
    (l.map fun s => b s * m s).sum ^ 2 ≤ (l.map b).sum * (l.map fun s => b s * m s ^ 2).sum ∧
    0 ≤ (l.map b).sum ∧ 0 ≤ (l.map fun s => b s * m s ^ 2).sum := by
  induction l with
  | nil => simp
  | cons a l ih =>
    obtain ⟨h1, h2, h3⟩ := ih fun s hs => hb s (by simp [hs])
    have ha := hb a (by simp)
    simp only [List.map_cons, List.sum_cons]
    set X := (l.map fun s => b s * m s).sum
    set B := (l.map b).sum
    set Q := (l.map fun s => b s * m s ^ 2).sum
    refine ⟨?_, by positivity, by positivity⟩
    -- (bm + X)² ≤ (b + B)(bm² + Q);  2 b m X ≤ b Q + B b m²
    have hX : 2 * m a * X ≤ Q + B * m a ^ 2 := by
      by_contra hlt
      push Not at hlt
      have hq : 0 ≤ Q + B * m a ^ 2 := by positivity
      have : (Q + B * m a ^ 2) ^ 2 < (2 * m a * X) ^ 2 := by nlinarith
      have h4 : 4 * (B * m a ^ 2) * Q ≤ (Q + B * m a ^ 2) ^ 2 := by nlinarith [sq_nonneg (Q - B * m a ^ 2)]
      have h5 : (2 * m a * X) ^ 2 ≤ 4 * m a ^ 2 * (B * Q) := by nlinarith [sq_nonneg (m a)]
      nlinarith
    nlinarith [mul_le_mul_of_nonneg_left hX ha]

theorem span_telescope (n : V3) : ∀ (S : List WingCrossSection),
    (∀ s ∈ List.zip S S.tail, 0 ≤ (s.2.leadingEdge - s.1.leadingEdge).dot n) →
    ((List.zip S S.tail).map (sectionSpan n)).sum
      = (((S.getLast?.map (·.leadingEdge)).getD 0) - ((S.head?.map (·.leadingEdge)).getD 0)).dot n
  | [], _ => by simp
  | [a], _ => by simp [V3.dot]
  | a :: b :: S, h => by
    have ih := span_telescope n (b :: S) (fun s hs => h s (by
      simp only [List.tail_cons, List.zip_cons_cons, List.mem_cons] at hs ⊢
      exact Or.inr hs))
    simp only [List.tail_cons, List.zip_cons_cons, List.map_cons, List.sum_cons] at ih ⊢
    rw [ih]
    have h0 := h (a, b) (by simp)
    simp only [sectionSpan, abs_of_nonneg h0, List.head?_cons, Option.map_some, Option.getD_some,
      List.getLast?_cons_cons]
    rw [← V3.add_dot]
    congr 1
    ext <;> simp

/-- C23: the mean aerodynamic chord is at least the standard mean chord, for a wing whose sections run outwards. -/
theorem C23_mac_ge_smc (w : Wing) (hn : w.spec.unitNormal.norm = 1)
    (hout : ∀ s ∈ List.zip w.sections w.sections.tail,
      0 ≤ (s.2.leadingEdge - s.1.leadingEdge).dot w.spec.unitNormal)
    (harea : w.projectedArea = trapezoidArea w) (hpos : 0 < trapezoidArea w) :
    w.standardMeanChord ≤ w.meanAerodynamicChord := by
  set l := List.zip w.sections w.sections.tail with hl
  set b := sectionSpan w.spec.unitNormal with hbdef
  set A := (l.map fun s => b s * ((s.1.chord + s.2.chord) / 2)).sum with hA
  set I := (l.map (Wing.macTerm w.spec.unitNormal)).sum with hI
  set B := (l.map b).sum with hB
  set k : ℝ := if w.spec.symmetric then 2 else 1 with hk
  have hk0 : 0 < k := by rw [hk]; split <;> norm_num
  have hb0 : ∀ s ∈ l, 0 ≤ b s := fun s _ => abs_nonneg _
  obtain ⟨c1, c2, c3⟩ := cauchy_list l b (fun s => (s.1.chord + s.2.chord) / 2) hb0
  have hQI : (l.map fun s => b s * ((s.1.chord + s.2.chord) / 2) ^ 2).sum ≤ I := by
    apply list_sum_le
    intro s hs
    unfold Wing.macTerm
    rw [Wing.projectedSpan_unit _ _ hn]
    have e : |(s.2.leadingEdge - s.1.leadingEdge).dot w.spec.unitNormal| = b s := rfl
    rw [e]
    have : ((s.1.chord + s.2.chord) / 2) ^ 2 ≤ (s.1.chord ^ 2 + s.1.chord * s.2.chord + s.2.chord ^ 2) / 3 := by
      nlinarith [sq_nonneg (s.1.chord - s.2.chord)]
    calc _ ≤ b s * ((s.1.chord ^ 2 + s.1.chord * s.2.chord + s.2.chord ^ 2) / 3) :=
          mul_le_mul_of_nonneg_left this (hb0 s hs)
      _ = _ := by ring
  have hAk : trapezoidArea w = k * A := rfl
  have hA0 : 0 < A := by rw [hAk] at hpos; exact (pos_iff_pos_of_mul_pos hpos).mp hk0
  have hspan : w.span = k * B := by
    unfold Wing.span
    simp only
    rw [Wing.projectedSpan_unit _ _ hn, ← span_telescope w.spec.unitNormal w.sections hout, ← hl, ← hbdef, ← hB,
      abs_of_nonneg c2, hk]
    split
    · ring
    · ring
  have hB0 : 0 < B := by
    rcases lt_or_eq_of_le c2 with h | h
    · exact h
    · rw [← h, zero_mul] at c1; nlinarith
  have hmac : w.meanAerodynamicChord = I / A := by
    unfold Wing.meanAerodynamicChord
    rw [harea, hAk]
    by_cases hsym : w.spec.symmetric = true
    · simp only [if_pos hsym, hk]
      rw [mul_div_mul_left _ _ two_ne_zero]
    · simp only [if_neg hsym, one_mul, hk, ← hl, ← hI]
  unfold Wing.standardMeanChord
  rw [hmac, harea, hAk, hspan, mul_div_mul_left _ _ hk0.ne', div_le_div_iff₀ hB0 hA0]
  calc A * A = A ^ 2 := by ring
    _ ≤ B * (l.map fun s => b s * ((s.1.chord + s.2.chord) / 2) ^ 2).sum := c1
    _ ≤ B * I := mul_le_mul_of_nonneg_left hQI c2
    _ = I * B := by ring

/-- C23: doubling a half wing leaves both mean chords unchanged: `w'` is the symmetric wing with the same sections,
and twice the projected area. -/
theorem C23_symmetric_doubling (w w' : Wing) (hs : w'.sections = w.sections)
    (hn : w'.spec.unitNormal = w.spec.unitNormal) (h0 : w.spec.symmetric = false) (h1 : w'.spec.symmetric = true)
    (ha : w'.projectedArea = 2 * w.projectedArea) :
    w'.meanAerodynamicChord = w.meanAerodynamicChord ∧ w'.standardMeanChord = w.standardMeanChord ∧
      w'.span = 2 * w.span := by
  have hspan : w'.span = 2 * w.span := by
    unfold Wing.span
    simp only [h0, h1, hs, hn, if_true, Bool.false_eq_true, if_false]; ring
  refine ⟨?_, ?_, hspan⟩
  · unfold Wing.meanAerodynamicChord
    simp only [h0, h1, hs, hn, if_true, Bool.false_eq_true, if_false, ha]
    rw [mul_div_mul_left _ _ two_ne_zero]
  · unfold Wing.standardMeanChord
    rw [ha, hspan, mul_div_mul_left _ _ two_ne_zero]

/-- C23: the wetted area is at least the projected area. -/
theorem C23_wetted_ge_projected (sections : List WingCrossSection) (le n : V3) (sym : Bool) (u : V3) (m : ℕ)
    (sp : String) (w : Wing) (h : Wing.create sections le n sym u m sp = .ok w)
    (hn : n.norm = 1) (hu : u.norm = 1) : 0 ≤ w.projectedArea ∧ w.projectedArea ≤ w.wettedArea := by
  have hup := (C22_wing_frame sections le n sym u m sp w h hn hu).unit_c
  constructor
  · apply List.sum_nonneg
    intro x hx
    obtain ⟨p, _, rfl⟩ := List.mem_map.mp hx
    exact (C03_projected_area_le p _ hup).1
  · apply list_sum_le
    intro p _
    exact (C03_projected_area_le p _ hup).2

end Ptera
