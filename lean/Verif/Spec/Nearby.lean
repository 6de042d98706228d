import Verif.Spec.Scaled

/-! Specification vocabulary: steady problems that differ little from each other. -/

namespace Ptera

/-- The vertices of two panels differ by less than `δ`. -/
def Panel.Near (δ : ℝ) (p q : Panel) : Prop :=
  (q.frontLeft - p.frontLeft).norm < δ ∧ (q.frontRight - p.frontRight).norm < δ ∧
    (q.backLeft - p.backLeft).norm < δ ∧ (q.backRight - p.backRight).norm < δ

/-- Two problems with the same numbers of airplanes, wings and panels whose flow (speed, density and angles), reference
points and dimensions, spans and panel vertices differ by less than `δ`. -/
structure SteadyProblem.Near (δ : ℝ) (P Q : SteadyProblem) : Prop where
  velocity : |Q.operatingPoint.velocity - P.operatingPoint.velocity| < δ
  density : |Q.operatingPoint.density - P.operatingPoint.density| < δ
  alpha : |Q.operatingPoint.alpha - P.operatingPoint.alpha| < δ
  beta : |Q.operatingPoint.beta - P.operatingPoint.beta| < δ
  airplanes : Q.airplanes.length = P.airplanes.length
  references : ∀ (i : ℕ) a b, P.airplanes[i]? = some a → Q.airplanes[i]? = some b →
    (b.xyzRef - a.xyzRef).norm < δ ∧ |b.sRef - a.sRef| < δ ∧ |b.cRef - a.cRef| < δ ∧ |b.bRef - a.bRef| < δ
  spans : ∀ r v w, wingAt P.airplanes r = some v → wingAt Q.airplanes r = some w → |w.span - v.span| < δ
  panels : ∀ r, (∃ p, panelAt P.airplanes r = some p) ↔ ∃ q, panelAt Q.airplanes r = some q
  vertices : ∀ r p q, panelAt P.airplanes r = some p → panelAt Q.airplanes r = some q → p.Near δ q

/-- The point `q` lies exactly where the solvers begin to leave out the line vortex `l`: at the distance `eps` from one of
its ends, or where the square of the length of the cross product of the vectors to its ends is `eps`. -/
def AtCutOff (l : LineVortex) (q : V3) : Prop :=
  (l.origin - q).norm = eps ∨ (l.termination - q).norm = eps ∨
    ((l.origin - q).cross (l.termination - q)).norm ^ 2 = eps

end Ptera
