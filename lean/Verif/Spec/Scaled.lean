import Verif.Spec.Made
import Verif.Spec.SteadyResults

/-! Specification vocabulary: the same airplane with its lengths measured in another unit, and where the vortices of a
steady problem lie. -/

namespace Ptera

/-- The arguments of a cross section, with every length multiplied by `ℓ`. -/
noncomputable def WingCrossSection.inUnits (ℓ : ℝ) (s : WingCrossSection) : WingCrossSection :=
  { s with leadingEdge := ℓ • s.leadingEdge, chord := ℓ * s.chord }

/-- The wings `w` and `w'` were built from the same arguments, except that every length of `w'` is multiplied by `ℓ`. -/
def Wing.Scaled (ℓ : ℝ) (w w' : Wing) : Prop :=
  ∃ sections le n sym u m sp, Wing.create sections le n sym u m sp = .ok w ∧
    Wing.create (sections.map (WingCrossSection.inUnits ℓ)) (ℓ • le) n sym u m sp = .ok w'

/-- The airplanes `a` and `a'` were built from the same arguments, except that every length of `a'` is multiplied by `ℓ`
and the reference area, if it was given, by `ℓ²`. -/
def Airplane.Scaled (ℓ : ℝ) (a a' : Airplane) : Prop :=
  ∃ wings wings' ref weight s c b, Airplane.create wings ref weight s c b = .ok a ∧
    Airplane.create wings' (ℓ • ref) weight (s.map (ℓ ^ 2 * ·)) (c.map (ℓ * ·)) (b.map (ℓ * ·)) = .ok a' ∧
    List.Forall₂ (Wing.Scaled ℓ) wings wings'

/-- The line vortices a horseshoe vortex and a ring vortex consist of. -/
def HorseshoeVortex.legs (v : HorseshoeVortex) : List LineVortex := [v.rightLeg, v.finiteLeg, v.leftLeg]
def RingVortex.legs (v : RingVortex) : List LineVortex := [v.frontLeg, v.leftLeg, v.backLeg, v.rightLeg]

/-- `l` is one of the line vortices a steady solver puts on the panels of the problem. -/
def IsFilament (method : SteadyMethod) (P : SteadyProblem) (l : LineVortex) : Prop :=
  ∃ r p, panelAt P.airplanes r = some p ∧
    match method with
    | .horseshoe => l ∈ ((HorseshoeSolver.create P).panelVortex r).legs
    | .ring => l ∈ (RingSolver.panelRing P.airplanes r).legs ∨
        p.isTrailingEdge = true ∧ l ∈ ((RingSolver.create P).panelHorseshoe r).legs

/-- `q` is one of the points at which a steady solver evaluates the velocity: the collocation points and the centres of
the line vortices that carry loads. -/
def IsEvaluated (method : SteadyMethod) (P : SteadyProblem) (q : V3) : Prop :=
  ∃ r p, panelAt P.airplanes r = some p ∧ (q = p.collocationPoint ∨
    match method with
    | .horseshoe => q = ((HorseshoeSolver.create P).panelVortex r).finiteLeg.center
    | .ring => let v := RingSolver.panelRing P.airplanes r
        q = v.frontLeg.center ∨ q = v.leftLeg.center ∨ q = v.rightLeg.center)

/-- The point `q` is so near to the ends or to the line of the vortex from `a` to `b` that it is left out of the
velocity there: within `eps` of an end, or the square of the length of `(a - q) × (b - q)` below `eps`. -/
def NearFilament (a b q : V3) : Prop :=
  (a - q).norm < eps ∨ (b - q).norm < eps ∨ ((a - q).cross (b - q)).norm ^ 2 < eps

/-- Multiplying all lengths by `ℓ` does not change whether a line vortex is left out at `q`, unless `q` lies exactly on
its line, where it has no influence anyway. -/
def SameCutOff (ℓ : ℝ) (l : LineVortex) (q : V3) : Prop :=
  (l.origin - q).cross (l.termination - q) = 0 ∨
    (NearFilament (ℓ • l.origin) (ℓ • l.termination) (ℓ • q) ↔ NearFilament l.origin l.termination q)

end Ptera
