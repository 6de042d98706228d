import Verif.Model.Progress

/-! Specification vocabulary: a progress bar. -/

namespace Ptera

noncomputable section

/-- How far a bar has come that was advanced by the first `j` of the given amounts. -/
def barAfter (amounts : List ℝ) (j : ℕ) : ℝ := (amounts.take j).sum

end

end Ptera
