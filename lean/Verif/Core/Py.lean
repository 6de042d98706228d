import Verif.Core.Vec
import Mathlib.Analysis.SpecialFunctions.Trigonometric.Basic
import Mathlib.Analysis.SpecialFunctions.Trigonometric.Arctan

/-!
# Python and numpy primitives

Not code of the repository: the meaning given to the library functions the repository calls.
-/

namespace Ptera

/-- The class of a raised Python exception. -/
inductive Err where
  | exception      -- `raise Exception(...)`
  | valueError
  | indexError
  | typeError
  | attributeError
  | assertionError
  | linAlgError
  | zeroDivisionError
  | keyError
  deriving DecidableEq, Repr

noncomputable section

/-- `np.linspace(a, b, n, endpoint=...)`: `n` values starting at `a`; for `n = 1` numpy returns `[a]`,
which this also gives. -/
def linspace (a b : ℝ) (n : ℕ) (endpoint : Bool := true) : List ℝ :=
  (List.range n).map fun (i : ℕ) => a + (i : ℝ) * ((b - a) / (if endpoint then (n : ℝ) - 1 else (n : ℝ)))

/-- `np.radians`. -/
def radians (d : ℝ) : ℝ := d * Real.pi / 180

/-- `np.degrees`. -/
def degrees (r : ℝ) : ℝ := r * 180 / Real.pi

/-- `np.finfo(float).eps`. -/
def eps : ℝ := 1 / 2 ^ 52

theorem eps_pos : 0 < eps := by unfold eps; positivity

/-- `np.mean` of a non-empty 1-D array. -/
def mean (l : List ℝ) : ℝ := l.sum / l.length

end

end Ptera
