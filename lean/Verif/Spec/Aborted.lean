import Verif.Spec.Unsteady

/-! # Vocabulary for runs that stop early (C88) -/

namespace Ptera
namespace UnsteadySolver

/-- The operations of a run before its step `k`. -/
noncomputable def beforeStep (prescribed : Bool) (k : ℕ) : List Operation :=
  [fun s => .ok s.preallocate, fun s => .ok s.initializePanelVortices] ++
    (List.range k).flatMap (stepOperations prescribed)

/-- Two solvers show the same at the first `k` steps: panels with their vortices and loads, loads of the airplanes, wake
records, and the wings' wake vertices. -/
def SameBefore (k : ℕ) (a b : UnsteadySolver) : Prop :=
  (∀ j < k, a.panels j = b.panels j ∧ a.loads j = b.loads j ∧
    a.wakeArrays.getD j [] = b.wakeArrays.getD j []) ∧
  ∀ w : WingRef, w.step < k → a.vertices w = b.vertices w

end UnsteadySolver
end Ptera
