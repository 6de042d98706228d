import Verif.Lemmas.MeshAssembly

/-! Helper lemmas: which section a mesh column belongs to; when meshing succeeds. -/

namespace Ptera

open List

/-- Column `k` of the section between `s` and `t` in a row of blocks. -/
theorem blockRow_get (w : WingSpec) (δ : WingCrossSection → ℝ) (i : ℕ) (hi : i < w.numChordwisePanels)
    (pre : List WingCrossSection) (s t : WingCrossSection) (post : List WingCrossSection) :
    ∀ Bs, Forall₂ (IsBlock w δ) (List.zip (pre ++ s :: t :: post) (pre ++ s :: t :: post).tail) Bs →
    ∃ ia oa, s.airfoil.addControlSurface (δ s) s.hinge = .ok ia ∧
      t.airfoil.addControlSurface (δ s) s.hinge = .ok oa ∧
      ∀ k < s.numSpanwisePanels, (blockRow Bs i)[(pre.map (·.numSpanwisePanels)).sum + k]?
        = some (rightPanel w s t ia oa i k) := by
  induction pre with
  | nil =>
    intro Bs hB
    simp only [List.nil_append, List.tail_cons, List.zip_cons_cons] at hB
    cases hB with
    | cons hb hr =>
      obtain ⟨ia, oa, h1, h2, rfl⟩ := hb
      refine ⟨ia, oa, h1, h2, ?_⟩
      intro k hk
      unfold blockRow
      rw [List.flatMap_cons, grid_getD _ _ _ _ hi]
      simp only [List.map_nil, List.sum_nil, zero_add]
      rw [List.getElem?_append_left (by simpa using hk)]
      simp [hk]
  | cons a pre ih =>
    intro Bs hB
    have hz : ∃ b, List.zip (a :: pre ++ s :: t :: post) (a :: pre ++ s :: t :: post).tail
        = (a, b) :: List.zip (pre ++ s :: t :: post) (pre ++ s :: t :: post).tail := by
      cases pre with
      | nil => exact ⟨s, rfl⟩
      | cons b pre => exact ⟨b, rfl⟩
    obtain ⟨b, hz⟩ := hz
    rw [hz] at hB
    cases hB with
    | cons hb hr =>
      obtain ⟨ia, oa, h1, h2, hk⟩ := ih _ hr
      refine ⟨ia, oa, h1, h2, ?_⟩
      intro k hk'
      obtain ⟨_, _, _, _, rfl⟩ := hb
      unfold blockRow at hk ⊢
      rw [List.flatMap_cons, grid_getD _ _ _ _ hi]
      rw [List.getElem?_append_right (by simp; omega)]
      simp only [List.length_map, List.length_range, List.map_cons, List.sum_cons]
      rw [show a.numSpanwisePanels + (pre.map (·.numSpanwisePanels)).sum + k - a.numSpanwisePanels
        = (pre.map (·.numSpanwisePanels)).sum + k by omega]
      exact hk k hk'

/-- Number of columns of one half of the wing. -/
def halfSpan (sections : List WingCrossSection) : ℕ := (sections.dropLast.map (·.numSpanwisePanels)).sum

theorem withChordwise_append (u : V3) (a b : List WingCrossSection) :
    withChordwise u (a ++ b) = withChordwise u a ++ withChordwise u b := by simp [withChordwise]

theorem withChordwise_cons (u : V3) (a : WingCrossSection) (b : List WingCrossSection) :
    withChordwise u (a :: b) = { a with wingUnitChordwise := u } :: withChordwise u b := rfl

theorem withChordwise_counts (u : V3) (a : List WingCrossSection) :
    (withChordwise u a).map (·.numSpanwisePanels) = a.map (·.numSpanwisePanels) := by
  simp [withChordwise, Function.comp_def]

theorem zip_tail_counts : ∀ l : List WingCrossSection,
    (List.zip l l.tail).map (fun s => s.1.numSpanwisePanels) = l.dropLast.map (·.numSpanwisePanels)
  | [] => rfl
  | [_] => rfl
  | a :: b :: l => by simpa using zip_tail_counts (b :: l)

theorem WingAccepted.half {S : List WingCrossSection} {w : Wing} (ha : WingAccepted S w) :
    ((List.zip w.sections w.sections.tail).map fun s => s.1.numSpanwisePanels).sum = halfSpan S := by
  rw [ha.stored, zip_tail_counts]
  unfold withChordwise halfSpan
  rw [← List.map_dropLast, List.map_map]
  rfl

/-- The panels of one wing section of an accepted wing, on the right and (mirrored) on the left. -/
theorem WingAccepted.section {S : List WingCrossSection} {w : Wing} (ha : WingAccepted S w)
    (pre : List WingCrossSection) (s t : WingCrossSection) (post : List WingCrossSection)
    (hS : S = pre ++ s :: t :: post) (i : ℕ) (hi : i < w.spec.numChordwisePanels) :
    let s' := { s with wingUnitChordwise := w.spec.unitChordwise }
    let t' := { t with wingUnitChordwise := w.spec.unitChordwise }
    let off := (pre.map (·.numSpanwisePanels)).sum
    (∃ ia oa, s.airfoil.addControlSurface s.deflection s.hinge = .ok ia ∧
      t.airfoil.addControlSurface s.deflection s.hinge = .ok oa ∧
      ∀ k < s.numSpanwisePanels,
        cell w.panels i ((if w.spec.symmetric then halfSpan S else 0) + (off + k))
          = some ((rightPanel w.spec s' t' ia oa i k).place w.numSpanwisePanels i
              ((if w.spec.symmetric then halfSpan S else 0) + (off + k)))) ∧
    (w.spec.symmetric = true →
      ∃ ia oa, s.airfoil.addControlSurface (mirroredDeflection s) s.hinge = .ok ia ∧
      t.airfoil.addControlSurface (mirroredDeflection s) s.hinge = .ok oa ∧
      ∀ k < s.numSpanwisePanels, off + k < halfSpan S ∧
        cell w.panels i (halfSpan S - 1 - (off + k))
          = some (((rightPanel w.spec s' t' ia oa i k).mirror w.spec.unitNormal w.spec.leadingEdge).place
              w.numSpanwisePanels i (halfSpan S - 1 - (off + k)))) := by
  intro s' t' off
  obtain ⟨hm, Rs, Ls, hR, hL, hlen, hrows⟩ := ha.grid
  have hst : w.sections = withChordwise w.spec.unitChordwise pre ++ s' :: t' ::
      withChordwise w.spec.unitChordwise post := by
    rw [ha.stored, hS, withChordwise_append, withChordwise_cons, withChordwise_cons]
  have hoff : ((withChordwise w.spec.unitChordwise pre).map (·.numSpanwisePanels)).sum = off := by
    rw [withChordwise_counts]
  have hcell : ∀ j, cell w.panels i j = (w.panels.getD i [])[j]? := by
    intro j
    have hi' : i < w.panels.length := by rw [hlen]; exact hi
    simp [cell, List.getD, hi']
  have hLlen : (blockRow Ls i).length = if w.spec.symmetric then halfSpan S else 0 := by
    by_cases h1 : w.spec.symmetric = true
    · rw [if_pos h1] at hL ⊢
      rw [blockRow_length _ _ _ i hi Ls hL, ha.half]
    · rw [if_neg h1] at hL ⊢
      rw [hL]; simp [blockRow]
  constructor
  · obtain ⟨ia, oa, h1, h2, h3⟩ := blockRow_get w.spec (·.deflection) i hi _ s' t' _ Rs (by rw [← hst]; exact hR)
    refine ⟨ia, oa, h1, h2, ?_⟩
    intro k hk
    rw [hcell, hrows i hi, List.getElem?_mapIdx, ← hLlen]
    rw [List.getElem?_append_right (by simp)]
    simp only [List.length_reverse, List.length_map, Nat.add_sub_cancel_left]
    have := h3 k hk
    rw [hoff] at this
    rw [this]
    rfl
  · intro hsym
    rw [if_pos hsym] at hL hLlen
    obtain ⟨ia, oa, h1, h2, h3⟩ := blockRow_get w.spec mirroredDeflection i hi _ s' t' _ Ls (by rw [← hst]; exact hL)
    refine ⟨ia, oa, h1, h2, ?_⟩
    intro k hk
    have := h3 k hk
    rw [hoff] at this
    have hlt : off + k < halfSpan S := by rw [← hLlen]; exact (List.getElem?_eq_some_iff.mp this).1
    refine ⟨hlt, ?_⟩
    rw [hcell, hrows i hi, List.getElem?_mapIdx]
    rw [List.getElem?_append_left (by simp; omega)]
    rw [List.getElem?_reverse (by simp; omega)]
    simp only [List.length_map, List.getElem?_map, hLlen]
    rw [show halfSpan S - 1 - (halfSpan S - 1 - (off + k)) = off + k by omega, this]
    rfl

/-! ## When meshing succeeds -/

theorem rightSection_exists (w : WingSpec) (s t : WingCrossSection) (hm : 0 < w.numChordwisePanels)
    (ia oa : Airfoil) (h1 : s.airfoil.addControlSurface s.deflection s.hinge = .ok ia)
    (h2 : t.airfoil.addControlSurface s.deflection s.hinge = .ok oa) :
    ∃ g, rightSection w s t = .ok g := by
  unfold rightSection
  rw [h1, h2]
  simp only [bind, Except.bind]
  rw [if_neg (by omega)]
  exact ⟨_, rfl⟩

theorem leftSection_exists (w : WingSpec) (s t : WingCrossSection) (hn : 0 < s.numSpanwisePanels)
    (ia oa : Airfoil) (h1 : s.airfoil.addControlSurface (mirroredDeflection s) s.hinge = .ok ia)
    (h2 : t.airfoil.addControlSurface (mirroredDeflection s) s.hinge = .ok oa) :
    ∃ g, leftSection w s t = .ok g := by
  unfold leftSection
  unfold mirroredDeflection at h1 h2
  simp only [h1, h2, bind, Except.bind]
  rw [if_neg hn.ne']
  exact ⟨_, rfl⟩

/-- What the meshing of one wing section needs: its airfoils can be flapped and, on a symmetric wing, it has spanwise
panels. -/
def Meshable (sym : Bool) (s t : WingCrossSection) : Prop :=
  (∃ ia, s.airfoil.addControlSurface s.deflection s.hinge = .ok ia) ∧
  (∃ oa, t.airfoil.addControlSurface s.deflection s.hinge = .ok oa) ∧
  (sym = true → 0 < s.numSpanwisePanels ∧
    (∃ ia, s.airfoil.addControlSurface (mirroredDeflection s) s.hinge = .ok ia) ∧
    (∃ oa, t.airfoil.addControlSurface (mirroredDeflection s) s.hinge = .ok oa))

theorem meshFold_exists (w : WingSpec) (hm : 0 < w.numChordwisePanels)
    (pairs : List (WingCrossSection × WingCrossSection)) :
    (∀ s ∈ pairs, Meshable w.symmetric s.1 s.2) → ∀ acc, ∃ P, pairs.foldlM (meshStep w) acc = .ok P := by
  induction pairs with
  | nil => intro _ acc; exact ⟨acc, rfl⟩
  | cons s pairs ih =>
    intro h acc
    obtain ⟨⟨ia, h1⟩, ⟨oa, h2⟩, h3⟩ := h s (by simp)
    obtain ⟨g, hg⟩ := rightSection_exists w s.1 s.2 hm ia oa h1 h2
    have : ∃ acc', meshStep w acc s = .ok acc' := by
      unfold meshStep
      simp only [hg, bind, Except.bind]
      by_cases hs : w.symmetric = true
      · rw [if_pos hs]
        obtain ⟨hn, ⟨ja, h4⟩, ⟨ka, h5⟩⟩ := h3 hs
        obtain ⟨g', hg'⟩ := leftSection_exists w s.1 s.2 hn ja ka h4 h5
        simp only [hg']
        exact ⟨_, rfl⟩
      · rw [if_neg hs]; exact ⟨_, rfl⟩
    obtain ⟨acc', ha⟩ := this
    obtain ⟨P, hP⟩ := ih (fun t ht => h t (by simp [ht])) acc'
    refine ⟨P, ?_⟩
    simp only [List.foldlM_cons, ha, bind, Except.bind]
    exact hP

/-- Rows of the grid the section loop builds. -/
theorem meshFold_rows (w : WingSpec) (S : List WingCrossSection) (hm : 0 < w.numChordwisePanels)
    (P : List (List Panel))
    (h : (List.zip S S.tail).foldlM (meshStep w) (List.replicate w.numChordwisePanels []) = .ok P) :
    P.length = w.numChordwisePanels ∧
    ∀ row ∈ P, row.length = if w.symmetric then halfSpan S * 2 else halfSpan S := by
  obtain ⟨Ls, Rs, d⟩ := meshFold w _ _ P (by simp) h
  refine ⟨d.len, ?_⟩
  have hR := isBlock_right _ _ _ d.right
  have hsum : ((List.zip S S.tail).map fun s => s.1.numSpanwisePanels).sum = halfSpan S := by
    rw [zip_tail_counts]; rfl
  intro row hrow
  obtain ⟨i, hi, rfl⟩ := List.getElem_of_mem hrow
  have hi' : i < w.numChordwisePanels := by rw [← d.len]; exact hi
  have e : P[i] = P.getD i [] := by simp [List.getD, hi]
  rw [e, d.rows i hi']
  have l1 := blockRow_length w _ _ i hi' Rs hR
  have l2 : ((List.replicate w.numChordwisePanels ([] : List Panel)).getD i []).length = 0 := by
    simp [List.getD, hi']
  unfold blockRow at l1
  rw [List.length_append, List.length_append, l1, l2, List.length_reverse, hsum]
  have hl := d.left
  by_cases hsym : w.symmetric = true
  · rw [if_pos hsym] at hl ⊢
    obtain ⟨Bs, hB, hLs⟩ := isBlock_left w hm _ Ls hl
    have := blockRow_mirror Bs (Panel.mirror w.unitNormal w.leadingEdge) i
    have l3 := congrArg List.length this
    rw [← hLs, List.length_map, blockRow_length w _ _ i hi' Bs hB, hsum] at l3
    unfold blockRow at l3
    rw [l3]; omega
  · rw [if_neg hsym] at hl ⊢
    rw [hl]; simp

theorem meshWing_exists (w : WingSpec) (S : List WingCrossSection) (hm : 0 < w.numChordwisePanels)
    (hf : ∀ s ∈ List.zip S S.tail, Meshable w.symmetric s.1 s.2) :
    ∃ P, meshWing w S (if w.symmetric then halfSpan S * 2 else halfSpan S) = .ok P := by
  obtain ⟨P, hP⟩ := meshFold_exists w hm _ hf (List.replicate w.numChordwisePanels [])
  obtain ⟨h1, h2⟩ := meshFold_rows w S hm P hP
  obtain ⟨Q, hQ⟩ := setPositions_no_error _ _ P h1 h2
  refine ⟨Q, ?_⟩
  unfold meshWing
  simp only [hP, bind, Except.bind]
  exact hQ

theorem meshWing_meshable (w : WingSpec) (S : List WingCrossSection) (n : ℕ) (P : List (List Panel))
    (h : meshWing w S n = .ok P) : ∀ s ∈ List.zip S S.tail, Meshable w.symmetric s.1 s.2 := by
  unfold meshWing at h
  simp only [bind, Except.bind] at h
  split at h
  · simp at h
  · rename_i Q hQ
    obtain ⟨Ls, Rs, d⟩ := meshFold w _ _ Q (by simp) hQ
    intro s hs
    obtain ⟨g, _, hg⟩ : ∃ g ∈ Rs, rightSection w s.1 s.2 = .ok g := by
      have := d.right
      clear hQ d h
      generalize List.zip S S.tail = pairs at this hs
      induction this with
      | nil => simp at hs
      | cons hab _ ih =>
        rcases List.mem_cons.mp hs with rfl | hs
        · exact ⟨_, by simp, hab⟩
        · obtain ⟨g, hg, e⟩ := ih hs; exact ⟨g, by simp [hg], e⟩
    obtain ⟨ia, oa, h1, h2, hm, _⟩ := rightSection_ok _ _ _ _ hg
    refine ⟨⟨ia, h1⟩, ⟨oa, h2⟩, ?_⟩
    intro hsym
    have hl := d.left
    rw [if_pos hsym] at hl
    obtain ⟨g', hg'⟩ : ∃ g, leftSection w s.1 s.2 = .ok g := by
      clear hQ d h
      generalize List.zip S S.tail = pairs at hl hs
      induction hl with
      | nil => simp at hs
      | cons hab _ ih =>
        rcases List.mem_cons.mp hs with rfl | hs
        · exact ⟨_, hab⟩
        · exact ih hs
    obtain ⟨ja, ka, h3, h4, _, hn⟩ := leftSection_ok _ _ _ _ hm hg'
    exact ⟨hn, ⟨ja, h3⟩, ⟨ka, h4⟩⟩

end Ptera
