import Verif.Model.Operations
import Verif.Spec.Lattice

/-! Specification vocabulary: unsteady problems a user can build, the wake a finished solver shows, the flow around
the airplanes at one step. -/

namespace Ptera

/-- The problem with these viscosities in the operating points of its steps. (Setting the attribute is the only way to
have another viscosity than the default one: generated operating points do not take over that of the base, C29.) -/
def UnsteadyProblem.withViscosity (p : UnsteadyProblem) (nu : ℕ → ℝ) : UnsteadyProblem :=
  { p with steadyProblems := p.steadyProblems.mapIdx fun k sp =>
      { sp with operatingPoint := { sp.operatingPoint with nu := nu k } } }

/-- The problem was built by the constructors from movements; the viscosities may have been set afterwards. -/
def UnsteadyProblem.Made (p : UnsteadyProblem) : Prop :=
  ∃ ams om numSteps numCycles numChords dt mv only q,
    Movement.create ams om numSteps numCycles numChords dt = .ok mv ∧ UnsteadyProblem.create mv only = .ok q ∧
    (p = q ∨ ∃ nu : ℕ → ℝ, (∀ k, 0 ≤ nu k) ∧ p = q.withViscosity nu)

/-- Every wing of every step has a chordwise panel. (Without one the code fails when it looks for the trailing
edge.) -/
def UnsteadyProblem.Chordwise (p : UnsteadyProblem) : Prop :=
  ∀ w wing, p.wing? w = some wing → 0 < wing.spec.numChordwisePanels

/-- A place in the wake: behind this wing of this airplane, in this row (the first row is next to the wing) and this
column. -/
structure WakePlace where
  airplane : ℕ
  wing : ℕ
  row : ℕ
  col : ℕ
  deriving DecidableEq

/-- The places of the wake at step `k`: behind every wing `k` rows of as many rings as the wing has spanwise panels;
listed by airplane, wing, row and column. -/
def wakePlaces (p : UnsteadyProblem) (k : ℕ) : List WakePlace :=
  (p.airplanesAt k).zipIdx.flatMap fun a => a.1.wings.zipIdx.flatMap fun w =>
    (List.range k).flatMap fun i => (List.range w.1.numSpanwisePanels).map fun j => ⟨a.2, w.2, i, j⟩

/-- The recorded wake ring at a place, as drawing and animation read it: in the arrays of step `k`, at the position
of the place in the list of places. -/
def wakeRecord (s : UnsteadySolver) (k : ℕ) (q : WakePlace) : Option WakeSlot :=
  s.wakeArrays[k]?.bind fun l => l[(wakePlaces s.problem k).idxOf q]?

/-- The panel of column `q.col` at the trailing edge of the wing the place is behind, at step `k`: nothing is behind
it. -/
def IsTrailing (p : UnsteadyProblem) (k : ℕ) (q : WakePlace) (r : PanelRef) : Prop :=
  r.airplane = q.airplane ∧ r.wing = q.wing ∧ r.col = q.col ∧ (panelAt (p.airplanesAt k) r).isSome ∧
    panelAt (p.airplanesAt k) { r with row := r.row + 1 } = none

noncomputable section

/-- Velocity at `q` induced by a vortex ring: its four sides are straight vortices (each as in C13 to C15). -/
def ringInduced (nu : ℝ) (frontRight frontLeft backLeft backRight : V3) (strength age : ℝ) (q : V3) : V3 :=
  expandedEntry nu ⟨backRight, frontRight, strength, age⟩ q + expandedEntry nu ⟨frontRight, frontLeft, strength, age⟩ q
    + expandedEntry nu ⟨frontLeft, backLeft, strength, age⟩ q + expandedEntry nu ⟨backLeft, backRight, strength, age⟩ q

/-- Velocity induced at `q` by the ring of a panel. -/
def panelInduced (nu : ℝ) (st : PanelState) (q : V3) : V3 :=
  match st.ring with
  | none => 0
  | some v => ringInduced nu v.frontRight v.frontLeft v.backLeft v.backRight v.strength 0 q

/-- Velocity induced at `q` by all bound rings of step `k`. -/
def boundFlow (s : UnsteadySolver) (k : ℕ) (q : V3) : V3 :=
  ((panelRefs (s.problem.airplanesAt k)).map fun r =>
    panelInduced (s.problem.operatingPointAt k).nu (s.panels k r) q).sum

/-- Velocity induced at `q` by the wake recorded for step `k`. -/
def wakeFlow (s : UnsteadySolver) (k : ℕ) (q : V3) : V3 :=
  ((s.wakeArrays[k]?.getD []).map fun w => ringInduced (s.problem.operatingPointAt k).nu w.frontRight w.frontLeft
    w.backLeft w.backRight w.strength w.age q).sum

/-- The flow at `q` at step `k`: bound rings, wake and freestream. -/
def flow (s : UnsteadySolver) (k : ℕ) (q : V3) : V3 :=
  boundFlow s k q + wakeFlow s k q + (s.problem.operatingPointAt k).freestreamVelocity

/-- Midpoints of three sides of a ring. -/
def RingVortex.frontMiddle (v : RingVortex) : V3 := (1 / 2 : ℝ) • (v.frontRight + v.frontLeft)
def RingVortex.leftMiddle (v : RingVortex) : V3 := (1 / 2 : ℝ) • (v.frontLeft + v.backLeft)
def RingVortex.rightMiddle (v : RingVortex) : V3 := (1 / 2 : ℝ) • (v.backRight + v.frontRight)

/-- Where a point of a panel's ring is at step `k`. -/
def ringPoint (s : UnsteadySolver) (k : ℕ) (r : PanelRef) (point : RingVortex → V3) : V3 :=
  (((s.panels k r).ring).map point).getD 0

/-- How fast that point moves: its displacement since the previous step over the time step; at the first step it
is at rest. -/
def pointVelocity (s : UnsteadySolver) (k : ℕ) (r : PanelRef) (point : RingVortex → V3) : V3 :=
  match k with
  | 0 => 0
  | j + 1 => (1 / s.problem.deltaTime) • (ringPoint s (j + 1) r point - ringPoint s j r point)

/-- Velocity of the flow past that point, seen from the point. -/
def relativeFlow (s : UnsteadySolver) (k : ℕ) (r : PanelRef) (point : RingVortex → V3) : V3 :=
  flow s k (ringPoint s k r point) - pointVelocity s k r point

/-- Strength of a panel's ring one step before step `k`; zero before the first step. -/
def previousStrength (s : UnsteadySolver) (k : ℕ) (r : PanelRef) : ℝ :=
  match k with
  | 0 => 0
  | j + 1 => strengthAt (s.problem.airplanesAt j) (s.panels j) r

end

/-- The solvers a user can have for a problem: a new one, one that ran before, one whose run raised or was interrupted
after some of its operations, or one made for a problem another solver already ran on. -/
inductive UnsteadySolver.Reached (p : UnsteadyProblem) : UnsteadySolver → Prop
  | fresh {s} : UnsteadySolver.create p = .ok s → Reached p s
  | rerun {s s' prescribed streamlines} : Reached p s → s.run prescribed streamlines = .ok s' → Reached p s'
  | aborted {s s' prescribed streamlines ops} : Reached p s →
      ops <+: UnsteadySolver.runOperations p.numSteps prescribed streamlines →
      UnsteadySolver.perform ops s = .ok s' → Reached p s'
  | another {s s'} : Reached p s → UnsteadySolver.create p s.toUnsteadyObjects = .ok s' → Reached p s'

/-- The four quantities of the result lists: where they are kept and what they are of an airplane's loads. -/
def loadQuantities : List ((ResultLists → List V3) × (AirplaneLoads → V3)) :=
  [(ResultLists.forces, AirplaneLoads.forceWind), (ResultLists.forceCoefficients, AirplaneLoads.forceCoefficients),
   (ResultLists.moments, AirplaneLoads.momentWind),
   (ResultLists.momentCoefficients, AirplaneLoads.momentCoefficients)]

end Ptera
