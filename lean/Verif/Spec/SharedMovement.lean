import Verif.Model.SharedMovement
import Verif.Spec.Unsteady

/-! Specification vocabulary: sessions in which several unsteady problems are built from one movement. -/

namespace Ptera

/-- The problem was built from this movement; the viscosities of the movement's operating points may have been set. -/
def UnsteadyProblem.OfMovement (mv : Movement) (nu : Option (ℕ → ℝ)) (p : UnsteadyProblem) : Prop :=
  ∃ only q, UnsteadyProblem.create mv only = .ok q ∧ p = (match nu with | none => q | some nu => q.withViscosity nu)

namespace MovementSession

/-- What happens in a session with the problems `p 0, p 1, …` of one movement: solvers are made for problems, are run any
number of times in any order and mode, raise or are interrupted after some of their operations; and steady solvers or the
user may leave anything on the panels and in the total loads of the airplanes. -/
inductive Event (p : ℕ → UnsteadyProblem) (h : MovementSession) : MovementSession → Prop
  | made (j i : ℕ) (s : UnsteadySolver) (new : UnsteadySolver.create (p i) (h.seen i) = .ok s) : Event p h (h.enter j i s)
  | ran (j i : ℕ) (s : UnsteadySolver) (prescribed streamlines : Bool) (h' : MovementSession)
      (solver : h.solvers j = some (i, s)) (run : h.run j i s prescribed streamlines = .ok h') : Event p h h'
  | stopped (j i : ℕ) (s s' : UnsteadySolver) (prescribed streamlines : Bool) (ops : List UnsteadySolver.Operation)
      (solver : h.solvers j = some (i, s))
      (some : ops <+: UnsteadySolver.runOperations (p i).numSteps prescribed streamlines)
      (performed : UnsteadySolver.perform ops (h.present i s) = .ok s') : Event p h (h.record j i s')
  | written (panels : ℕ → PanelHeap) (loads : ℕ → List AirplaneLoads) :
      Event p h { h with objects := { h.objects with panels := panels, loads := loads } }

/-- The states of a session that begins with an unused movement. -/
inductive Reached (p : ℕ → UnsteadyProblem) : MovementSession → Prop
  | start : Reached p {}
  | event {h h' : MovementSession} : Reached p h → Event p h h' → Reached p h'

/-- A later state; no solver of problem `i` ran in between. -/
inductive Sparing (p : ℕ → UnsteadyProblem) (i : ℕ) (h : MovementSession) : MovementSession → Prop
  | now : Sparing p i h h
  | made {h' : MovementSession} (earlier : Sparing p i h h') (j i' : ℕ) (s : UnsteadySolver)
      (new : UnsteadySolver.create (p i') (h'.seen i') = .ok s) : Sparing p i h (h'.enter j i' s)
  | ran {h' h'' : MovementSession} (earlier : Sparing p i h h') (j i' : ℕ) (s : UnsteadySolver)
      (prescribed streamlines : Bool) (solver : h'.solvers j = some (i', s))
      (run : h'.run j i' s prescribed streamlines = .ok h'') (other : i' ≠ i) : Sparing p i h h''
  | stopped {h' : MovementSession} (earlier : Sparing p i h h') (j i' : ℕ) (s s' : UnsteadySolver)
      (prescribed streamlines : Bool) (ops : List UnsteadySolver.Operation) (solver : h'.solvers j = some (i', s))
      (some : ops <+: UnsteadySolver.runOperations (p i').numSteps prescribed streamlines)
      (performed : UnsteadySolver.perform ops (h'.present i' s) = .ok s') (other : i' ≠ i) :
      Sparing p i h (h'.record j i' s')
  | written {h' : MovementSession} (earlier : Sparing p i h h') (panels : ℕ → PanelHeap)
      (loads : ℕ → List AirplaneLoads) :
      Sparing p i h { h' with objects := { h'.objects with panels := panels, loads := loads } }

end MovementSession

end Ptera
