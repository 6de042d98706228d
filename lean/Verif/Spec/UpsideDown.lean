import Verif.Spec.Studies
import Verif.Lemmas.MeshAssembly

/-! Specification vocabulary: airplanes that are each other's image upside down, that is, mirrored in the plane
`z = 0`. -/

namespace Ptera

noncomputable section

/-- The image of a point or vector in the plane `z = 0`. -/
def inverted (v : V3) : V3 := ⟨v.x, v.y, -v.z⟩

/-- Panel `p'` is panel `p` upside down: left stays left, front stays front. -/
def Panel.IsInverted (p p' : Panel) : Prop :=
  p'.frontLeft = inverted p.frontLeft ∧ p'.frontRight = inverted p.frontRight ∧
  p'.backLeft = inverted p.backLeft ∧ p'.backRight = inverted p.backRight

/-- Wing `w'` is wing `w` upside down, panel by panel. -/
def Wing.IsInverted (w w' : Wing) : Prop :=
  w'.span = w.span ∧ w'.numSpanwisePanels = w.numSpanwisePanels ∧ w'.panels.length = w.panels.length ∧
  ∀ i j p p', cell w.panels i j = some p → cell w'.panels i j = some p' → p.IsInverted p'

/-- Airplane `a'` is airplane `a` upside down, with the same reference dimensions. -/
def Airplane.IsInverted (a a' : Airplane) : Prop :=
  a'.xyzRef = inverted a.xyzRef ∧ a'.sRef = a.sRef ∧ a'.cRef = a.cRef ∧ a'.bRef = a.bRef ∧
  List.Forall₂ Wing.IsInverted a.wings a'.wings

/-- The outline of an airfoil upside down. Outlines run from the trailing edge over the upper side to the leading edge
and back over the lower side, so the points also change their order. -/
def invertedOutline (c : List (ℝ × ℝ)) : List (ℝ × ℝ) := (c.map fun p => (p.1, -p.2)).reverse

/-- The outline has as many points above the nose as below it, and the nose is in front of all of them. -/
def SharpNose (c : List (ℝ × ℝ)) : Prop :=
  ∃ k, c.length = 2 * k + 1 ∧ ∀ i, i < c.length → i ≠ k → (c.getD k (0, 0)).1 < (c.getD i (0, 0)).1

/-- Cross section `s'` is cross section `s` upside down: the leading edge and the normal mirrored, twist and deflection
reversed, the airfoil given by the inverted outline. -/
def WingCrossSection.IsInverted (s s' : WingCrossSection) : Prop :=
  ∃ airfoil, Airfoil.ofCoordinates s.airfoil.coordinates = .ok s.airfoil ∧
    Airfoil.ofCoordinates (invertedOutline s.airfoil.coordinates) = .ok airfoil ∧
    s' = { s with airfoil := airfoil, leadingEdge := inverted s.leadingEdge, unitNormal := inverted s.unitNormal
                  twist := -s.twist, deflection := -s.deflection
                  wingUnitChordwise := inverted s.wingUnitChordwise }

/-- The outlines keep their noses when control surfaces are deflected either way. -/
def NosesKept (sections : List WingCrossSection) : Prop :=
  (∀ s ∈ sections, SharpNose s.airfoil.coordinates) ∧
  ∀ s ∈ sections, ∀ t ∈ sections, ∀ d a, (d = s.deflection ∨ d = -s.deflection) →
    t.airfoil.addControlSurface d s.hinge = .ok a → SharpNose a.coordinates

/-- Wing `w'` is built as wing `w` is, from the inverted cross sections, at the inverted place and with the inverted
directions. -/
def Wing.BuiltInverted (w w' : Wing) : Prop :=
  ∃ sections sections' le n sym u m sp, List.Forall₂ WingCrossSection.IsInverted sections sections' ∧
    NosesKept sections ∧ Wing.create sections le n sym u m sp = .ok w ∧
    Wing.create sections' (inverted le) (inverted n) sym (inverted u) m sp = .ok w'

/-- Airplane `a'` is built as airplane `a` is, from the wings upside down and with the inverted reference point. -/
def Airplane.BuiltInverted (a a' : Airplane) : Prop :=
  ∃ wings wings' ref weight s c b, Airplane.create wings ref weight s c b = .ok a ∧
    Airplane.create wings' (inverted ref) weight s c b = .ok a' ∧ List.Forall₂ Wing.BuiltInverted wings wings'

/-- The oscillation with the opposite amplitude. -/
def Oscillation.negated (o : Oscillation) : Oscillation := { o with amplitude := -o.amplitude }

/-- The movement of a cross section upside down: it flaps (`sweeping`, the angle above the plane `z = 0`) and pitches
the other way, and swings back and forth (`heaving`) in the same way. -/
def WingCrossSectionMovement.IsInverted (m m' : WingCrossSectionMovement) : Prop :=
  m.base.IsInverted m'.base ∧ m'.sweeping = m.sweeping.negated ∧ m'.pitching = m.pitching.negated ∧
  m'.heaving = m.heaving

/-- The movement of a wing upside down. -/
def WingMovement.IsInverted (m m' : WingMovement) : Prop :=
  m.base.BuiltInverted m'.base ∧
  List.Forall₂ WingCrossSectionMovement.IsInverted m.sectionMovements m'.sectionMovements ∧
  NosesKept (m.sectionMovements.map (·.base)) ∧ m'.xLe = m.xLe ∧ m'.yLe = m.yLe ∧ m'.zLe = m.zLe.negated

/-- The movement of an airplane upside down. -/
def AirplaneMovement.IsInverted (m m' : AirplaneMovement) : Prop :=
  m.base.BuiltInverted m'.base ∧ List.Forall₂ WingMovement.IsInverted m.wingMovements m'.wingMovements ∧
  m'.xRef = m.xRef ∧ m'.yRef = m.yRef ∧ m'.zRef = m.zRef.negated

/-- Step `k` of the finished run `s'` of problem `p'` shows step `k` of the finished run `s` of problem `p` upside down.
The image of a force is `(x, y, -z)`, that of a moment `(-x, -y, z)`; vortices have the opposite strength. -/
structure StepInverted (p p' : UnsteadyProblem) (s s' : UnsteadySolver) (k : ℕ) : Prop where
  flow : ∀ q, Ptera.flow s' k (inverted q) = inverted (Ptera.flow s k q)
  panels : ∀ r c, panelAt (p.airplanesAt k) r = some c → ∃ (c' : Panel) (v v' : RingVortex),
    panelAt (p'.airplanesAt k) r = some c' ∧ c.IsInverted c' ∧
    (s.panels k r).ring = some v ∧ (s'.panels k r).ring = some v' ∧ v'.strength = -v.strength ∧
    (p.firstResultsStep ≤ k → ∃ L L', (s.panels k r).loads = some L ∧ (s'.panels k r).loads = some L' ∧
      L'.forceGeometry = inverted L.forceGeometry ∧ L'.momentGeometry = -inverted L.momentGeometry ∧
      L'.forceWind = inverted L.forceWind ∧ L'.momentWind = -inverted L.momentWind)
  wake : ∀ c ∈ wakePlaces p k, c ∈ wakePlaces p' k ∧ ∃ (w w' : WakeSlot), wakeRecord s k c = some w ∧
    wakeRecord s' k c = some w' ∧ w'.frontLeft = inverted w.frontLeft ∧ w'.frontRight = inverted w.frontRight ∧
    w'.backLeft = inverted w.backLeft ∧ w'.backRight = inverted w.backRight ∧
    w'.strength = -w.strength ∧ w'.age = w.age
  totals : p.firstResultsStep ≤ k → ∀ (a : ℕ) A, (p.airplanesAt k)[a]? = some A → ∃ L L' : AirplaneLoads,
    (s.loads k)[a]? = some L ∧ (s'.loads k)[a]? = some L' ∧
    L'.forceWind = inverted L.forceWind ∧ L'.momentWind = -inverted L.momentWind ∧
    L'.forceCoefficients = inverted L.forceCoefficients ∧ L'.momentCoefficients = -inverted L.momentCoefficients

end

end Ptera
