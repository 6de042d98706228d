import Verif.Model.SharedAirplanes
import Verif.Spec.SteadyResults

/-! Specification vocabulary: sessions in which airplane objects are part of several steady problems. -/

namespace Ptera

noncomputable section

namespace Hangar

/-- A new solver is made for some of the airplanes, and run: the session afterwards, and what the solver reports. -/
def solve (h : Hangar) (method : SteadyMethod) (ids : List ℕ) (op : OperatingPoint) :
    Except Err (Hangar × SteadyResults) :=
  match method with
  | .horseshoe => (h.runHorseshoe ids op).map fun x => (x.1, x.2.results)
  | .ring => (h.runRing ids op).map fun x => (x.1, x.2.results)

/-- The strength of the vortex a panel shows. -/
def strength (h : Hangar) (method : SteadyMethod) (r : PanelRef) : Option ℝ :=
  match method with
  | .horseshoe => (h.panels r).horseshoe.map (·.strength)
  | .ring => (h.panels r).ring.map (·.strength)

/-- Airplane `a`, the one numbered `i` in its problem, shows the results `R` of that problem: the airplane its total
loads, and its panels their strengths and loads. -/
def AirplaneShows (h : Hangar) (method : SteadyMethod) (a i : ℕ) (R : SteadyResults) : Prop :=
  (∃ L, R.totals[i]? = some L ∧ h.totals a = some L) ∧
  ∀ w row col p, panelAt [h.geometry a] ⟨0, w, row, col⟩ = some p →
    h.strength method ⟨a, w, row, col⟩ = R.strength ⟨i, w, row, col⟩ ∧
    (h.panels ⟨a, w, row, col⟩).loads = R.loads ⟨i, w, row, col⟩

/-- The airplanes of the problem show its results. -/
def Shows (h : Hangar) (method : SteadyMethod) (ids : List ℕ) (R : SteadyResults) : Prop :=
  ∀ i a, ids[i]? = some a → h.AirplaneShows method a i R

/-- Nothing that the airplane and its panels show has changed. -/
def Untouched (h h' : Hangar) (a : ℕ) : Prop :=
  h'.geometry a = h.geometry a ∧ h'.totals a = h.totals a ∧ ∀ w row col, h'.panels ⟨a, w, row, col⟩ = h.panels ⟨a, w, row, col⟩

/-- What happens in a session: solvers are made and run; and a run that raises or is interrupted, or the user, may leave
anything on the panels and in the results of the airplanes concerned. `ids` are the airplanes concerned. -/
inductive Event (ids : List ℕ) (h : Hangar) : Hangar → Prop
  | solved (method : SteadyMethod) (op : OperatingPoint) (h' : Hangar) (R : SteadyResults) (distinct : ids.Nodup)
      (run : h.solve method ids op = .ok (h', R)) : Event ids h h'
  | raised (h' : Hangar) (geometry : h'.geometry = h.geometry) (others : ∀ a ∉ ids, h.Untouched h' a) : Event ids h h'

/-- `h'` is a later state of the session, after any number of events; none concerns an airplane in `spared`. -/
inductive Later (spared : List ℕ) (h : Hangar) : Hangar → Prop
  | now : Later spared h h
  | event (ids : List ℕ) (h' h'' : Hangar) (earlier : Later spared h h') (spares : ∀ a ∈ ids, a ∉ spared)
      (e : Event ids h' h'') : Later spared h h''

end Hangar

end

end Ptera
