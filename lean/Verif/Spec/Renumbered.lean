import Verif.Spec.Made

/-! Specification vocabulary: the same airplanes, and the same wings of each, listed in another order. -/

namespace Ptera

/-- The airplanes `as'` are the airplanes `as` in another order, each with the same wings in another order: airplane
`a` has become airplane `ρ a`, and its wing `w` wing `ω a w`. The reference points are the same; nothing is said about
the reference dimensions, whose defaults come from the wing that is listed first. -/
structure Renumbered (as as' : List Airplane) (ρ : ℕ → ℕ) (ω : ℕ → ℕ → ℕ) : Prop where
  length : as'.length = as.length
  injective : ∀ a b, a < as.length → b < as.length → ρ a = ρ b → a = b
  airplanes : ∀ (a : ℕ) A, as[a]? = some A → ∃ A' : Airplane, as'[ρ a]? = some A' ∧ A'.xyzRef = A.xyzRef ∧
    A'.wings.length = A.wings.length ∧ (∀ v w, v < A.wings.length → w < A.wings.length → ω a v = ω a w → v = w) ∧
    ∀ (w : ℕ) W, A.wings[w]? = some W → A'.wings[ω a w]? = some W

end Ptera
