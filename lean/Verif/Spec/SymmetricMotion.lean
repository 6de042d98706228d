import Verif.Spec.Studies
import Verif.Spec.Mirror

/-! Specification vocabulary: movements that keep an airplane its own mirror image in the plane `y = 0`, and runs that
show mirror images of each other. -/

namespace Ptera

/-- The wing stays its own mirror image: it starts in the plane `y = 0` and its leading edge does not move sideways;
it is either built with `symmetric=True`, with the same control surface in all sections, symmetric or not deflected,
and at least one spanwise panel in each; or it is a fin whose leading edges all lie in the plane. -/
def WingMovement.Symmetric (m : WingMovement) : Prop :=
  m.base.spec.leadingEdge.y = 0 ∧ (m.yLe.amplitude = 0 ∨ m.yLe.period = 0) ∧
  if m.base.spec.symmetric then ∃ deflection hinge type, (type = "symmetric" ∨ deflection = 0) ∧
    ∀ s ∈ m.sectionMovements, 0 < s.base.numSpanwisePanels ∧ s.base.deflection = deflection ∧ s.base.hinge = hinge ∧
      s.base.controlSurfaceType = type
  else ∀ s ∈ m.sectionMovements, s.base.leadingEdge.y = 0

/-- The airplane stays its own mirror image. -/
def AirplaneMovement.Symmetric (m : AirplaneMovement) : Prop :=
  m.base.xyzRef.y = 0 ∧ (m.yRef.amplitude = 0 ∨ m.yRef.period = 0) ∧ ∀ w ∈ m.wingMovements, w.Symmetric

/-- Step `k` of the finished run `s'` of problem `p'` shows the mirror image of step `k` of the finished run `s` of
problem `p`. The image of a force is `(x, -y, z)`, that of a moment `(-x, y, -z)`. A ring whose left and right are
exchanged keeps its strength, a ring whose are not has the opposite strength. -/
structure StepMirrored (p p' : UnsteadyProblem) (s s' : UnsteadySolver) (k : ℕ) : Prop where
  flow : ∀ q, Ptera.flow s' k (mirrored q) = mirrored (Ptera.flow s k q)
  panels : ∀ r c, panelAt (p.airplanesAt k) r = some c → ∃ (r' : PanelRef) (c' : Panel) (swapped : Bool) (v v' : RingVortex),
    r'.airplane = r.airplane ∧ r'.wing = r.wing ∧ r'.row = r.row ∧ panelAt (p'.airplanesAt k) r' = some c' ∧
    c.IsMirror swapped c' ∧ (s.panels k r).ring = some v ∧ (s'.panels k r').ring = some v' ∧
    v'.strength = (if swapped then v.strength else -v.strength) ∧
    (p.firstResultsStep ≤ k → ∃ L L', (s.panels k r).loads = some L ∧ (s'.panels k r').loads = some L' ∧
      L'.forceGeometry = mirrored L.forceGeometry ∧ L'.momentGeometry = -mirrored L.momentGeometry ∧
      L'.forceWind = mirrored L.forceWind ∧ L'.momentWind = -mirrored L.momentWind)
  wake : ∀ c ∈ wakePlaces p k, ∃ (c' : WakePlace) (swapped : Bool) (w w' : WakeSlot), c' ∈ wakePlaces p' k ∧
    c'.airplane = c.airplane ∧ c'.wing = c.wing ∧ c'.row = c.row ∧ wakeRecord s k c = some w ∧
    wakeRecord s' k c' = some w' ∧
    w'.frontLeft = mirrored (if swapped then w.frontRight else w.frontLeft) ∧
    w'.frontRight = mirrored (if swapped then w.frontLeft else w.frontRight) ∧
    w'.backLeft = mirrored (if swapped then w.backRight else w.backLeft) ∧
    w'.backRight = mirrored (if swapped then w.backLeft else w.backRight) ∧
    w'.strength = (if swapped then w.strength else -w.strength) ∧ w'.age = w.age
  totals : p.firstResultsStep ≤ k → ∀ (a : ℕ) A, (p.airplanesAt k)[a]? = some A → ∃ L L' : AirplaneLoads,
    (s.loads k)[a]? = some L ∧ (s'.loads k)[a]? = some L' ∧
    L'.forceWind = mirrored L.forceWind ∧ L'.momentWind = -mirrored L.momentWind ∧
    L'.forceCoefficients = mirrored L.forceCoefficients ∧ L'.momentCoefficients = -mirrored L.momentCoefficients

end Ptera
