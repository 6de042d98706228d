import Verif.Spec.Moved
import Verif.Model.Solver

/-! Specification vocabulary: airplanes moved apart. -/

namespace Ptera

/-- The airplanes `as'` are the airplanes `as`, each moved by its own displacement: airplane `i` by `d i`. -/
def MovedSeparately (d : ℕ → V3) (as as' : List Airplane) : Prop :=
  as'.length = as.length ∧
    ∀ i a a', as[i]? = some a → as'[i]? = some a' → Airplane.Moved M3.one (d i) a a'

/-- The displacements of any two of the first `n` airplanes differ by at least `D`. -/
def Apart (D : ℝ) (d : ℕ → V3) (n : ℕ) : Prop :=
  ∀ i j, i < n → j < n → i ≠ j → D ≤ (d i - d j).norm

/-- The place of a panel in a problem with its airplane alone. -/
def PanelRef.alone (r : PanelRef) : PanelRef := { r with airplane := 0 }

end Ptera
