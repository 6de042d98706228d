import Verif.Spec.Made

/-! Specification vocabulary: enumerations of panels, net strengths of shared filaments, repeated runs. -/

namespace Ptera

/-- `panels` lists every panel of the airplanes exactly once, by airplane, wing, row and column. -/
structure Enumerates (as : List Airplane) (panels : List PanelRef) : Prop where
  all : ∀ r, r ∈ panels ↔ ∃ p, panelAt as r = some p
  once : panels.Nodup
  ordered : panels.Pairwise PanelRef.Before
  count : panels.length = (as.map fun a => (a.wings.map fun w => (w.panels.map List.length).sum).sum).sum

open Classical in
/-- Strength of the ring on the panel at a place; zero where there is no panel. -/
noncomputable def strengthAt (as : List Airplane) (heap : PanelHeap) (r : PanelRef) : ℝ :=
  if ∃ p, panelAt as r = some p then (((heap r).ring).map (·.strength)).getD 0 else 0

/-- Net strength of the right side of a ring: the ring minus its right neighbour. -/
noncomputable def netRight (as : List Airplane) (heap : PanelHeap) (r : PanelRef) : ℝ :=
  strengthAt as heap r - strengthAt as heap { r with col := r.col + 1 }

/-- Net strength of the left side of a ring: the ring minus its left neighbour. -/
noncomputable def netLeft (as : List Airplane) (heap : PanelHeap) (r : PanelRef) : ℝ :=
  strengthAt as heap r - (if r.col = 0 then 0 else strengthAt as heap { r with col := r.col - 1 })

/-- Net strength of the front side of a ring: the ring minus the ring in front of it. -/
noncomputable def netFront (as : List Airplane) (heap : PanelHeap) (r : PanelRef) : ℝ :=
  strengthAt as heap r - (if r.row = 0 then 0 else strengthAt as heap { r with row := r.row - 1 })

/-- On this wing, panels next to each other in a row share their common side. -/
def SidesShared (as : List Airplane) (airplane wing : ℕ) : Prop :=
  ∀ i j p q, panelAt as ⟨airplane, wing, i, j⟩ = some p → panelAt as ⟨airplane, wing, i, j + 1⟩ = some q →
    p.frontRight = q.frontLeft ∧ p.backRight = q.backLeft

/-- `solver.run()` called `n` times in a row. -/
def runTimes {S : Type} (run : S → Except Err S) : ℕ → S → Except Err S
  | 0, s => .ok s
  | n + 1, s => run s >>= runTimes run n

end Ptera
