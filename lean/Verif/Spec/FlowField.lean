import Verif.Spec.Unsteady
import Verif.Spec.SteadyResults
import Mathlib.Analysis.Calculus.Deriv.Basic

/-! Specification vocabulary: the straight vortex filaments a solver shows, and divergence and curl of a flow. -/

namespace Ptera

/-- The filaments of a horseshoe vortex: right leg, finite leg, left leg. -/
def HorseshoeVortex.filaments (v : HorseshoeVortex) : List Seg :=
  [⟨v.rightLegOrigin, v.finiteLegOrigin, v.strength, 0⟩, ⟨v.finiteLegOrigin, v.finiteLegTermination, v.strength, 0⟩,
    ⟨v.finiteLegTermination, v.leftLegTermination, v.strength, 0⟩]

/-- The four sides of a ring with these corners. -/
def ringFilaments (backRight frontRight frontLeft backLeft : V3) (strength age : ℝ) : List Seg :=
  [⟨backRight, frontRight, strength, age⟩, ⟨frontRight, frontLeft, strength, age⟩,
    ⟨frontLeft, backLeft, strength, age⟩, ⟨backLeft, backRight, strength, age⟩]

/-- The filaments of a bound ring vortex. -/
def RingVortex.filaments (v : RingVortex) : List Seg :=
  ringFilaments v.backRight v.frontRight v.frontLeft v.backLeft v.strength 0

/-- The filaments of a recorded wake ring. -/
def WakeSlot.filaments (w : WakeSlot) : List Seg :=
  ringFilaments w.backRight w.frontRight w.frontLeft w.backLeft w.strength w.age

/-- The filaments on the panels after a run of the horseshoe solver: those of every panel's horseshoe vortex. -/
def HorseshoeSolver.filaments (s : HorseshoeSolver) : List Seg :=
  (panelRefs s.airplanes).flatMap fun r => ((s.heap r).horseshoe.map (·.filaments)).getD []

/-- The horseshoe vortices behind the wings after a run of the ring solver: those of the panels nothing is behind. -/
def RingSolver.trailingVortices (s : RingSolver) : List HorseshoeVortex :=
  (panelRefs s.airplanes).flatMap fun r =>
    if panelAt s.airplanes { r with row := r.row + 1 } = none then (s.heap r).horseshoe.toList else []

/-- The filaments after a run of the ring solver: those of every panel's ring vortex and of the horseshoe vortices
behind the wings. -/
def RingSolver.filaments (s : RingSolver) : List Seg :=
  (panelRefs s.airplanes).flatMap (fun r => ((s.heap r).ring.map (·.filaments)).getD [])
    ++ s.trailingVortices.flatMap (·.filaments)

/-- The filaments at step `k` of a run of the unsteady solver: those of every panel's ring vortex and of the recorded
wake rings. -/
def UnsteadySolver.filaments (s : UnsteadySolver) (k : ℕ) : List Seg :=
  (panelRefs (s.problem.airplanesAt k)).flatMap (fun r => ((s.panels k r).ring.map (·.filaments)).getD [])
    ++ (s.wakeArrays[k]?.getD []).flatMap (·.filaments)

/-- Length of a filament. -/
noncomputable def Seg.length (f : Seg) : ℝ := (f.termination - f.origin).norm

/-- The velocity at `q` of straight filaments, each as the code takes it (C09, C14). -/
noncomputable def filamentFlow (nu : ℝ) (l : List Seg) (q : V3) : V3 := (l.map fun f => expandedEntry nu f q).sum

/-- The point is clear of the filament: beyond the distances at which the code leaves the filament out. -/
def Seg.Clear (f : Seg) (q : V3) : Prop :=
  eps < (f.origin - q).norm ∧ eps < (f.termination - q).norm ∧
    eps < ((f.origin - q).cross (f.termination - q)).norm ^ 2

/-- The point is not on the border of the region in which the code leaves the filament out. -/
def Seg.OffBorder (f : Seg) (q : V3) : Prop :=
  (f.origin - q).norm ≠ eps ∧ (f.termination - q).norm ≠ eps ∧
    ((f.origin - q).cross (f.termination - q)).norm ^ 2 ≠ eps

/-- The point is clear of the filament, or the filament has no length. -/
def Seg.Free (f : Seg) (q : V3) : Prop := f.origin = f.termination ∨ f.Clear q

/-- Derivative of a moving vector. -/
def V3.HasDeriv (f : ℝ → V3) (d : V3) (t : ℝ) : Prop :=
  HasDerivAt (fun h => (f h).x) d.x t ∧ HasDerivAt (fun h => (f h).y) d.y t ∧ HasDerivAt (fun h => (f h).z) d.z t

/-- The derivatives of a velocity field at a point along the three axes. -/
structure HasPartials (v : V3 → V3) (q gx gy gz : V3) : Prop where
  x : V3.HasDeriv (fun h => v (q + h • ⟨1, 0, 0⟩)) gx 0
  y : V3.HasDeriv (fun h => v (q + h • ⟨0, 1, 0⟩)) gy 0
  z : V3.HasDeriv (fun h => v (q + h • ⟨0, 0, 1⟩)) gz 0

/-- The velocity field has divergence `d` at `q`. -/
def HasDivergence (v : V3 → V3) (q : V3) (d : ℝ) : Prop :=
  ∃ gx gy gz, HasPartials v q gx gy gz ∧ gx.x + gy.y + gz.z = d

/-- The velocity field has curl (vorticity) `w` at `q`. -/
def HasCurl (v : V3 → V3) (q w : V3) : Prop :=
  ∃ gx gy gz, HasPartials v q gx gy gz ∧ (⟨gy.z - gz.y, gz.x - gx.z, gx.y - gy.x⟩ : V3) = w

/-- The vorticity at `q` of the two far ends of a horseshoe vortex, where its legs stop: at one end it runs out from the
point, at the other into it. -/
noncomputable def HorseshoeVortex.endVorticity (v : HorseshoeVortex) (q : V3) : V3 :=
  (v.strength / (4 * Real.pi)) • ((1 / (q - v.leftLegTermination).norm ^ 3) • (q - v.leftLegTermination)
    - (1 / (q - v.rightLegOrigin).norm ^ 3) • (q - v.rightLegOrigin))

end Ptera
