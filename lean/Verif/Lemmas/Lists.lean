import Verif.Core.Py

/-! Helper lemmas about lists, `linspace` and real arithmetic. -/

namespace Ptera

theorem linspace_length (a b : ℝ) (n : ℕ) (e : Bool) : (linspace a b n e).length = n := by
  simp [linspace]

theorem linspace_getElem (a b : ℝ) (n : ℕ) (e : Bool) (i : ℕ) (h : i < (linspace a b n e).length) :
    (linspace a b n e)[i] = a + (i : ℝ) * ((b - a) / (if e then (n : ℝ) - 1 else (n : ℝ))) := by
  simp [linspace]

theorem linspace_getElem? (a b : ℝ) (n : ℕ) (e : Bool) (i : ℕ) (h : i < n) :
    (linspace a b n e)[i]? = some (a + (i : ℝ) * ((b - a) / (if e then (n : ℝ) - 1 else (n : ℝ)))) := by
  simp [linspace, h]

end Ptera
