import Verif.Spec.SymmetricMotion
import Verif.Lemmas.Translated
import Verif.Props.MirrorRuns

/-! Helper lemmas: symmetric movements generate symmetric airplanes; mirrored problems show mirrored steps. -/

namespace Ptera

open List UnsteadySolver

theorem Oscillation.values_constant {o : Oscillation} (h : o.amplitude = 0 ∨ o.period = 0) {b : ℝ} {n : ℕ} {dt : ℝ}
    {l : List ℝ} (hv : o.values b n dt = .ok l) {k : ℕ} (hk : k < n) : l.getD k 0 = b := by
  unfold Oscillation.values oscillatingSinspace oscillatingLinspace at hv
  rw [if_pos h, if_pos h] at hv
  split_ifs at hv <;>
    · rw [Except.ok.injEq] at hv
      subst hv
      simp [constList, List.getD_eq_getElem?_getD, hk]

/-- A generated section keeps what the base section has of its control surface and panels. -/
def SectionLike (m : WingCrossSectionMovement) (s : WingCrossSection) : Prop :=
  s.numSpanwisePanels = m.base.numSpanwisePanels ∧ s.deflection = m.base.deflection ∧ s.hinge = m.base.hinge ∧
    s.controlSurfaceType = m.base.controlSurfaceType ∧ s.unitNormal = ⟨0, 1, 0⟩

theorem sectionHistory_like {n : ℕ} {dt : ℝ} {last : Option (List WingCrossSection)} {m : WingCrossSectionMovement}
    {h : List WingCrossSection} (hh : WingMovement.sectionHistory n dt last m = .ok h) :
    (∀ s ∈ h, SectionLike m s) ∧
    (m.base.leadingEdge.y = 0 → (∀ l ∈ last, ∀ s ∈ l, s.leadingEdge.y = 0) → ∀ s ∈ h, s.leadingEdge.y = 0) := by
  have key : ∀ {v : Bool} {l : List V3} {a b c : ℝ}, m.generate n dt l v a b c = .ok h →
      (∀ s ∈ h, SectionLike m s) ∧ ∀ s ∈ h, (v = true → s.leadingEdge = m.base.leadingEdge) ∧
        (v = false → a = 0 → ∃ k < n, s.leadingEdge = l.getD k 0) := by
    intro v l a b c hg
    obtain ⟨sw, pi, he, _, _, _, hl, hk⟩ := WingCrossSectionMovement.generate_ok hg
    refine ⟨?_, ?_⟩
    · intro s hs
      obtain ⟨k, hk'⟩ := List.getElem?_of_mem hs
      obtain ⟨s', e1, e2⟩ := hk k (by have := (List.getElem?_eq_some_iff.mp hk').1; omega)
      rw [hk'] at e1
      cases e1
      split_ifs at e2 <;> rw [rebuild_ok e2] <;> exact ⟨rfl, rfl, rfl, rfl, rfl⟩
    · intro s hs
      obtain ⟨k, hk'⟩ := List.getElem?_of_mem hs
      have hkn : k < n := by have := (List.getElem?_eq_some_iff.mp hk').1; omega
      obtain ⟨s', e1, e2⟩ := hk k hkn
      rw [hk'] at e1
      cases e1
      refine ⟨?_, ?_⟩
      · intro hv
        rw [if_pos hv] at e2
        rw [rebuild_ok e2]
      · intro hv ha
        rw [if_neg (by simp [hv])] at e2
        refine ⟨k, hkn, ?_⟩
        rw [rebuild_ok e2]
        ext <;> simp [WingCrossSectionMovement.movedLeadingEdge, ha]
  unfold WingMovement.sectionHistory at hh
  cases last with
  | none =>
    simp only at hh
    split_ifs at hh
    obtain ⟨k1, k2⟩ := key hh
    refine ⟨k1, fun _ _ s hs => ?_⟩
    obtain ⟨k, hk, e⟩ := (k2 s hs).2 rfl rfl
    rw [e]
    simp [List.getD_eq_getElem?_getD, hk]
  | some prev =>
    cases prev with
    | nil => simp at hh
    | cons a l =>
      simp only at hh
      split_ifs at hh with hy
      · refine ⟨(key hh).1, fun h1 h2 => ?_⟩
        exact absurd (by rw [h1, h2 _ rfl a (by simp)]) hy
      · refine ⟨(key hh).1, fun h1 _ s hs => ?_⟩
        rw [((key hh).2 s hs).1 rfl, h1]

theorem sectionHistories_like {n : ℕ} {dt : ℝ} : ∀ {ms : List WingCrossSectionMovement}
    {last : Option (List WingCrossSection)} {hs : List (List WingCrossSection)},
    WingMovement.sectionHistories n dt last ms = .ok hs →
    Forall₂ (fun m (h : List WingCrossSection) => h.length = n ∧ ∀ s ∈ h, SectionLike m s) ms hs ∧
    ((∀ m ∈ ms, m.base.leadingEdge.y = 0) → (∀ l ∈ last, ∀ s ∈ l, s.leadingEdge.y = 0) →
      ∀ h ∈ hs, ∀ s ∈ h, s.leadingEdge.y = 0) := by
  intro ms
  induction ms with
  | nil =>
    intro last hs h
    simp only [WingMovement.sectionHistories, Except.ok.injEq] at h
    subst h
    exact ⟨.nil, fun _ _ h hh => by simp at hh⟩
  | cons m ms ih =>
    intro last hs h
    unfold WingMovement.sectionHistories at h
    obtain ⟨h0, hh0, h⟩ := bind_ok.mp h
    obtain ⟨rest, hrest, h⟩ := bind_ok.mp h
    rw [pure_ok] at h
    subst h
    obtain ⟨i1, i2⟩ := ih hrest
    obtain ⟨l1, l2⟩ := sectionHistory_like hh0
    refine ⟨.cons ⟨sectionHistory_length hh0, l1⟩ i1, ?_⟩
    intro hm hlast
    have h0y := l2 (hm m (by simp)) hlast
    intro h hh
    rcases List.mem_cons.mp hh with rfl | hh
    · exact h0y
    · refine i2 (fun m' hm' => hm m' (by simp [hm'])) ?_ h hh
      intro l hl
      cases hl
      exact h0y

theorem column_like {n : ℕ} {ms : List WingCrossSectionMovement} {hs : List (List WingCrossSection)}
    (h : Forall₂ (fun m (h : List WingCrossSection) => h.length = n ∧ ∀ s ∈ h, SectionLike m s) ms hs) {k : ℕ} (hk : k < n) :
    Forall₂ SectionLike ms (hs.filterMap (·[k]?)) := by
  induction h with
  | nil => exact .nil
  | @cons m l ms hs h1 _ ih =>
    rw [List.filterMap_cons, List.getElem?_eq_getElem (by omega)]
    exact .cons (h1.2 _ (List.getElem_mem _)) ih

/-- What mirroring a wing in place does, with left and right exchanged or not. -/
def SelfMirrored (b : Bool) (W : Wing) : Prop :=
  ∀ i j p p', cell W.panels i j = some p → cell W.panels i (if b then W.numSpanwisePanels - 1 - j else j) = some p' →
    p.IsMirror b p'

theorem WingMovement.Symmetric.wing {m : WingMovement} (h : m.Symmetric) {n : ℕ} {d : ℝ} {ws : List Wing}
    (hg : m.generate n d = .ok ws) {k : ℕ} {W : Wing} (hW : ws[k]? = some W) :
    SelfMirrored m.base.spec.symmetric W ∧ (m.base.spec.symmetric = true → ∀ i j p q, cell W.panels i j = some p →
      cell W.panels i (j + 1) = some q → p.frontRight = q.frontLeft ∧ p.backRight = q.backLeft) := by
  obtain ⟨hle, hy, hcase⟩ := h
  obtain ⟨xs, ys, zs, hs, h1, h2, h3, h4, hl, hk⟩ := WingMovement.generate_ok hg
  have hkn : k < n := by rw [← hl]; exact (List.getElem?_eq_some_iff.mp hW).1
  obtain ⟨V, e1, e2⟩ := hk k hkn
  rw [hW, Option.some.injEq] at e1
  subst e1
  obtain ⟨hlike, hfin⟩ := sectionHistories_like h4
  have hcol := column_like hlike hkn
  have hy0 : ys.getD k 0 = 0 := by rw [Oscillation.values_constant hy h2 hkn, hle]
  cases hsym : m.base.spec.symmetric with
  | true =>
    rw [hsym] at hcase e2
    simp only [if_true] at hcase
    obtain ⟨df, hg', ty, hty, hall⟩ := hcase
    have hall' : ∀ s ∈ (hs.filterMap (·[k]?)).dropLast, 0 < s.numSpanwisePanels ∧ s.deflection = df ∧ s.hinge = hg' ∧
        s.controlSurfaceType = ty := by
      intro s hsm
      obtain ⟨i, hi⟩ := List.getElem?_of_mem (List.dropLast_subset _ hsm)
      have hi' : i < m.sectionMovements.length := by
        rw [hcol.length_eq]; exact (List.getElem?_eq_some_iff.mp hi).1
      obtain ⟨s', hs', hlk⟩ := forall₂_at hcol i _ (List.getElem?_eq_getElem hi')
      rw [hi, Option.some.injEq] at hs'
      subst hs'
      obtain ⟨b1, b2, b3, b4⟩ := hall _ (List.getElem_mem hi')
      obtain ⟨c1, c2, c3, c4, -⟩ := hlk
      exact ⟨by rw [c1]; exact b1, by rw [c2, b2], by rw [c3, b3], by rw [c4, b4]⟩
    refine ⟨?_, fun _ i j p q hp hq => C20_everywhere _ _ _ _ _ _ _ W e2 df hg' ty hall' (fun _ => hty) i j p q hp hq⟩
    intro i j p p' hp hp'
    simp only [if_true] at hp'
    obtain ⟨q1, q2, q3, q4, -⟩ := C21_mirror _ _ _ _ _ _ W e2
      (fun s hs => by obtain ⟨-, b2, -, b4⟩ := hall' s hs; rw [b2, b4]; exact hty) (by simp [V3.norm, V3.dot])
      i j p p' hp hp'
    rw [reflect_y _ _ hy0] at q1 q2 q3 q4
    exact ⟨q1, q2, q3, q4⟩
  | false =>
    rw [hsym] at hcase e2
    simp only [Bool.false_eq_true, if_false] at hcase
    refine ⟨?_, fun h => by cases h⟩
    have hy1 := hfin hcase (fun l hl => by cases hl)
    intro i j p p' hp hp'
    simp only [Bool.false_eq_true, if_false] at hp'
    rw [hp, Option.some.injEq] at hp'
    subst hp'
    obtain ⟨h1, h2, h3, h4⟩ := upright_panels _ _ _ _ _ W e2 hy0 rfl (by
      intro s hsm
      obtain ⟨l, hl, hls⟩ := List.mem_filterMap.mp hsm
      refine ⟨hy1 l hl s (List.mem_of_getElem? hls), ?_⟩
      obtain ⟨i, hi⟩ := List.getElem?_of_mem hsm
      have hi' : i < m.sectionMovements.length := by
        rw [hcol.length_eq]; exact (List.getElem?_eq_some_iff.mp hi).1
      obtain ⟨s', hs', hlk⟩ := forall₂_at hcol i _ (List.getElem?_eq_getElem hi')
      rw [hi, Option.some.injEq] at hs'
      subst hs'
      exact hlk.2.2.2.2) i j p hp
    have e : ∀ v : V3, v.y = 0 → v = mirrored v := by intro v hv; ext <;> simp [mirrored, hv]
    exact ⟨e _ h1, e _ h2, e _ h3, e _ h4⟩

end Ptera
