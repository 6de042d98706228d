import Verif.Spec.Lattice
import Verif.Lemmas.MeshAssembly

/-! Specification vocabulary: sets of airplanes that are images of each other under an isometry. -/

namespace Ptera

/-- Panel `p'` is the image of panel `p` under `x ↦ M x + t`, with left and right exchanged or not. -/
def IsImage (M : M3) (t : V3) (swapped : Bool) (p p' : Panel) : Prop :=
  p'.frontLeft = M.mulVec (if swapped then p.frontRight else p.frontLeft) + t ∧
  p'.frontRight = M.mulVec (if swapped then p.frontLeft else p.frontRight) + t ∧
  p'.backLeft = M.mulVec (if swapped then p.backRight else p.backLeft) + t ∧
  p'.backRight = M.mulVec (if swapped then p.backLeft else p.backRight) + t

/-- The place of the image of a panel: wing `w` of airplane `a` goes to wing `ω a w` of airplane `ρ a w`, rows keep
their places, and columns too unless left and right of that wing are exchanged; then they are counted from the other
end. -/
def imageRef (as : List Airplane) (swap : ℕ → ℕ → Bool) (ρ ω : ℕ → ℕ → ℕ) (r : PanelRef) : PanelRef :=
  ⟨ρ r.airplane r.wing, ω r.airplane r.wing, r.row,
    if swap r.airplane r.wing then ((wingAt as r).map (·.numSpanwisePanels)).getD 0 - 1 - r.col else r.col⟩

/-- The wings of the airplanes `as'` are, in whatever order and whichever airplane they belong to, the images of the
wings of the airplanes `as` under the isometry `x ↦ M x + t`: wing `w` of airplane `a` has become wing `ω a w` of
airplane `ρ a w`. See `SimilarAirplanes` for `swap`. -/
structure SimilarWings (as as' : List Airplane) (M : M3) (t : V3) (swap : ℕ → ℕ → Bool) (ρ ω : ℕ → ℕ → ℕ) : Prop where
  ortho : M.IsOrtho
  wings : ∀ a A w W, as[a]? = some A → A.wings[w]? = some W → ∃ A' W', as'[ρ a w]? = some A' ∧
    A'.wings[ω a w]? = some W' ∧ W'.span = W.span ∧
    W'.numSpanwisePanels = W.numSpanwisePanels ∧ W'.panels.length = W.panels.length ∧
    ∀ i j p p', cell W.panels i j = some p →
      cell W'.panels i (if swap a w then W.numSpanwisePanels - 1 - j else j) = some p' →
      IsImage M t (swap a w) p p'
  onto : ∀ a' A' w' W', as'[a']? = some A' → A'.wings[w']? = some W' →
    ∃ a A w W, as[a]? = some A ∧ A.wings[w]? = some W ∧ ρ a w = a' ∧ ω a w = w'
  injective : ∀ a A w W b B v V, as[a]? = some A → A.wings[w]? = some W → as[b]? = some B → B.wings[v]? = some V →
    ρ a w = ρ b v → ω a w = ω b v → a = b ∧ w = v

/-- The wings of the airplanes `as'` are, up to the order of airplanes and wings, the images of the wings of the
airplanes `as` under the isometry `x ↦ M x + t`, whatever their reference points. See `SimilarAirplanes` for `swap`. -/
structure SimilarShapes (as as' : List Airplane) (M : M3) (t : V3) (swap : ℕ → ℕ → Bool) (ρ : ℕ → ℕ)
    (ω : ℕ → ℕ → ℕ) : Prop where
  ortho : M.IsOrtho
  airplanes : ∀ a A, as[a]? = some A → ∃ A', as'[ρ a]? = some A' ∧
    (∀ w W, A.wings[w]? = some W → ∃ W', A'.wings[ω a w]? = some W' ∧ W'.span = W.span ∧
      W'.numSpanwisePanels = W.numSpanwisePanels ∧ W'.panels.length = W.panels.length ∧
      ∀ i j p p', cell W.panels i j = some p →
        cell W'.panels i (if swap a w then W.numSpanwisePanels - 1 - j else j) = some p' →
        IsImage M t (swap a w) p p') ∧
    (∀ w', w' < A'.wings.length → ∃ w, w < A.wings.length ∧ ω a w = w') ∧
    (∀ v w, v < A.wings.length → w < A.wings.length → ω a v = ω a w → v = w)
  onto : ∀ a', a' < as'.length → ∃ a, a < as.length ∧ ρ a = a'
  injective : ∀ a b, a < as.length → b < as.length → ρ a = ρ b → a = b

/-- The airplanes `as'` are, up to their order and the order of their wings, the images of the airplanes `as` under
the isometry `x ↦ M x + t`: reference points, spans and panels. Left and right are exchanged on the wings where `swap`
says so: on the mirror image of a wing that has a left and a right half, say, but not on the mirror image of a fin. -/
structure SimilarAirplanes (as as' : List Airplane) (M : M3) (t : V3) (swap : ℕ → ℕ → Bool) (ρ : ℕ → ℕ)
    (ω : ℕ → ℕ → ℕ) : Prop where
  ortho : M.IsOrtho
  airplanes : ∀ a A, as[a]? = some A → ∃ A', as'[ρ a]? = some A' ∧ A'.xyzRef = M.mulVec A.xyzRef + t ∧
    (∀ w W, A.wings[w]? = some W → ∃ W', A'.wings[ω a w]? = some W' ∧ W'.span = W.span ∧
      W'.numSpanwisePanels = W.numSpanwisePanels ∧ W'.panels.length = W.panels.length ∧
      ∀ i j p p', cell W.panels i j = some p →
        cell W'.panels i (if swap a w then W.numSpanwisePanels - 1 - j else j) = some p' →
        IsImage M t (swap a w) p p') ∧
    (∀ w', w' < A'.wings.length → ∃ w, w < A.wings.length ∧ ω a w = w') ∧
    (∀ v w, v < A.wings.length → w < A.wings.length → ω a v = ω a w → v = w)
  onto : ∀ a', a' < as'.length → ∃ a, a < as.length ∧ ρ a = a'
  injective : ∀ a b, a < as.length → b < as.length → ρ a = ρ b → a = b

theorem SimilarShapes.similarWings {as as' : List Airplane} {M : M3} {t : V3} {sw : ℕ → ℕ → Bool} {ρ : ℕ → ℕ}
    {ω : ℕ → ℕ → ℕ} (h : SimilarShapes as as' M t sw ρ ω) : SimilarWings as as' M t sw (fun a _ => ρ a) ω where
  ortho := h.ortho
  wings := fun a A w W hA hW => by
    obtain ⟨A', hA', hw, -⟩ := h.airplanes a A hA
    obtain ⟨W', hW', h'⟩ := hw w W hW
    exact ⟨A', W', hA', hW', h'⟩
  onto := fun a' A' w' W' hA' hW' => by
    obtain ⟨a, ha, ea⟩ := h.onto a' (List.getElem?_eq_some_iff.mp hA').1
    obtain ⟨B, hB, -, ho, -⟩ := h.airplanes a as[a] (List.getElem?_eq_getElem ha)
    rw [ea, hA'] at hB
    cases hB
    obtain ⟨w, hw, ew⟩ := ho w' (List.getElem?_eq_some_iff.mp hW').1
    exact ⟨a, as[a], w, as[a].wings[w], List.getElem?_eq_getElem ha, List.getElem?_eq_getElem hw, ea, ew⟩
  injective := fun a A w W b B v V hA hW hB hV h1 h2 => by
    have e := h.injective a b (List.getElem?_eq_some_iff.mp hA).1 (List.getElem?_eq_some_iff.mp hB).1 h1
    subst e
    rw [hA] at hB
    cases hB
    obtain ⟨_, -, -, -, hi⟩ := h.airplanes a A hA
    exact ⟨rfl, hi w v (List.getElem?_eq_some_iff.mp hW).1 (List.getElem?_eq_some_iff.mp hV).1 h2⟩

theorem SimilarAirplanes.shapes {as as' : List Airplane} {M : M3} {t : V3} {sw : ℕ → ℕ → Bool} {ρ : ℕ → ℕ}
    {ω : ℕ → ℕ → ℕ} (h : SimilarAirplanes as as' M t sw ρ ω) : SimilarShapes as as' M t sw ρ ω where
  ortho := h.ortho
  airplanes := fun a A hA => by
    obtain ⟨A', h1, -, h2⟩ := h.airplanes a A hA
    exact ⟨A', h1, h2⟩
  onto := h.onto
  injective := h.injective

theorem SimilarAirplanes.reference {as as' : List Airplane} {M : M3} {t : V3} {sw : ℕ → ℕ → Bool} {ρ : ℕ → ℕ}
    {ω : ℕ → ℕ → ℕ} (h : SimilarAirplanes as as' M t sw ρ ω) {a : ℕ} {A A' : Airplane} (hA : as[a]? = some A)
    (hA' : as'[ρ a]? = some A') : A'.xyzRef = M.mulVec A.xyzRef + t := by
  obtain ⟨B, h1, h2, -⟩ := h.airplanes a A hA
  rw [hA'] at h1
  cases h1
  exact h2

end Ptera
