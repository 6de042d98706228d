import Verif.Model.Solver

/-! Specification vocabulary: the streamlines of a flow. -/

namespace Ptera

noncomputable section

/-- The middles of the back edges of the panels of the last chordwise row of every wing, by airplane, by wing, from one
end of the wing to the other. -/
def trailingEdgePoints (airplanes : List Airplane) : List V3 :=
  airplanes.flatMap fun a => a.wings.flatMap fun w =>
    (w.panels.getLast?.getD []).map fun p => (1 / 2 : ℝ) • (p.backLeft + p.backRight)

/-- `rows` has the points of the streamlines that start from `seeds` and follow the velocity for `n` steps of `dt`
seconds: the first row is the seeds, each later row is the row before, every point moved by `dt` times the velocity
there. -/
structure IsStreamlines (velocity : V3 → V3) (seeds : List V3) (n : ℕ) (dt : ℝ) (rows : List (List V3)) : Prop where
  length : rows.length = n + 1
  first : rows[0]? = some seeds
  next : ∀ (k : ℕ) (row : List V3), k < n → rows[k]? = some row →
    rows[k + 1]? = some (row.map fun p => p + dt • velocity p)

end

end Ptera
