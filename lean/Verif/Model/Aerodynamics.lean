import Verif.Model.Functions

/-!
# Model of `pterasoftware/aerodynamics.py`
-/

namespace Ptera

noncomputable section

/-- `squire` (aerodynamics.py 56). -/
def squire : ℝ := 1 / 10 ^ 4
/-- `lamb` (aerodynamics.py 63). -/
def lamb : ℝ := 1.25643

/-! ## Vortex objects -/

/-- `LineVortex` (aerodynamics.py 71-103). -/
@[ext] structure LineVortex where
  origin : V3
  termination : V3
  strength : ℝ
  vector : V3
  center : V3

/-- `LineVortex.__init__` (aerodynamics.py 84-103). -/
def LineVortex.mk' (origin termination : V3) (strength : ℝ) : LineVortex :=
  let vector := termination - origin
  { origin, termination, strength, vector, center := origin + (0.5 : ℝ) • vector }

/-- `HorseshoeVortex` (aerodynamics.py 106-188). -/
structure HorseshoeVortex where
  finiteLegOrigin : V3
  finiteLegTermination : V3
  strength : ℝ
  infiniteLegDirection : V3
  infiniteLegLength : ℝ
  rightLegOrigin : V3
  leftLegTermination : V3
  rightLeg : LineVortex
  finiteLeg : LineVortex
  leftLeg : LineVortex

/-- `HorseshoeVortex.__init__` (aerodynamics.py 120-172). -/
def HorseshoeVortex.mk' (finiteLegOrigin finiteLegTermination : V3) (strength : ℝ)
    (infiniteLegDirection : V3) (infiniteLegLength : ℝ) : HorseshoeVortex :=
  let rightLegOrigin := finiteLegOrigin + infiniteLegLength • infiniteLegDirection
  let leftLegTermination := finiteLegTermination + infiniteLegLength • infiniteLegDirection
  { finiteLegOrigin, finiteLegTermination, strength, infiniteLegDirection, infiniteLegLength,
    rightLegOrigin, leftLegTermination
    rightLeg := LineVortex.mk' rightLegOrigin finiteLegOrigin strength
    finiteLeg := LineVortex.mk' finiteLegOrigin finiteLegTermination strength
    leftLeg := LineVortex.mk' finiteLegTermination leftLegTermination strength }

/-- `HorseshoeVortex.update_strength` (aerodynamics.py 174-188). -/
def HorseshoeVortex.updateStrength (h : HorseshoeVortex) (strength : ℝ) : HorseshoeVortex :=
  { h with
    strength := strength
    rightLeg := { h.rightLeg with strength := strength }
    finiteLeg := { h.finiteLeg with strength := strength }
    leftLeg := { h.leftLeg with strength := strength } }

/-- `RingVortex` (aerodynamics.py 191-340). -/
structure RingVortex where
  frontLeft : V3
  frontRight : V3
  backLeft : V3
  backRight : V3
  strength : ℝ
  frontLeg : LineVortex
  leftLeg : LineVortex
  backLeg : LineVortex
  rightLeg : LineVortex
  center : V3
  age : ℝ

/-- `RingVortex.__init__` (aerodynamics.py 208-270). -/
def RingVortex.mk' (frontLeft frontRight backLeft backRight : V3) (strength : ℝ) : RingVortex :=
  { frontLeft, frontRight, backLeft, backRight, strength
    frontLeg := LineVortex.mk' frontRight frontLeft strength
    leftLeg := LineVortex.mk' frontLeft backLeft strength
    backLeg := LineVortex.mk' backLeft backRight strength
    rightLeg := LineVortex.mk' backRight frontRight strength
    center := centroidOfQuadrilateral frontLeft frontRight backLeft backRight
    age := 0 }

/-- `RingVortex.update_strength` (aerodynamics.py 272-285). -/
def RingVortex.updateStrength (r : RingVortex) (strength : ℝ) : RingVortex :=
  { r with
    strength := strength
    rightLeg := { r.rightLeg with strength := strength }
    frontLeg := { r.frontLeg with strength := strength }
    leftLeg := { r.leftLeg with strength := strength }
    backLeg := { r.backLeg with strength := strength } }

/-- `RingVortex.update_position` (aerodynamics.py 287-340): new vertices, legs rebuilt with the current
strength, new centre; strength and age untouched. -/
def RingVortex.updatePosition (r : RingVortex) (frontLeft frontRight backLeft backRight : V3) :
    RingVortex :=
  { r with
    frontLeft := frontLeft, frontRight := frontRight, backLeft := backLeft, backRight := backRight
    frontLeg := LineVortex.mk' frontRight frontLeft r.strength
    leftLeg := LineVortex.mk' frontLeft backLeft r.strength
    backLeg := LineVortex.mk' backLeft backRight r.strength
    rightLeg := LineVortex.mk' backRight frontRight r.strength
    center := centroidOfQuadrilateral frontLeft frontRight backLeft backRight }

/-! ## Induced velocities -/

/-- The data of one line vortex as the loops over `vortex_id` read it
(aerodynamics.py 834-838, 965-969): `origins[i]`, `terminations[i]`, `strengths[i]`, `ages[i]`. -/
@[ext] structure Seg where
  origin : V3
  termination : V3
  strength : ℝ
  age : ℝ

/-- Index-wise reading of the parallel arrays (aerodynamics.py 822-838): `ages=None` means zeros. The real
code indexes all arrays by `range(origins.shape[0])`; arrays of different lengths are truncated here. -/
def segs (origins terminations : List V3) (strengths : List ℝ) (ages : Option (List ℝ)) : List Seg :=
  let ages := ages.getD (List.replicate origins.length 0)
  List.zipWith (fun (ot : V3 × V3) (sa : ℝ × ℝ) => ⟨ot.1, ot.2, sa.1, sa.2⟩)
    (List.zip origins terminations) (List.zip strengths ages)

/-- `r_c` (aerodynamics.py 842, 973). Python's `math.sqrt` raises on a negative argument (negative age or
viscosity), which theorems exclude by `0 ≤ age`, `0 ≤ nu`. -/
def coreRadius (nu : ℝ) (s : Seg) : ℝ := 2 * Real.sqrt (lamb * (nu + squire * |s.strength|) * s.age)

/-- The body of the inner loop of `collapsed_velocities_from_line_vortices`
(aerodynamics.py 840-891): the new value of `velocities[point_id]`. -/
def collapsedStep (nu : ℝ) (s : Seg) (point acc : V3) : V3 :=
  let r_c := coreRadius nu s
  let r_0 := (s.termination - s.origin).norm
  let c_1 := s.strength / (4 * Real.pi)
  let c_2 := r_0 ^ 2 * r_c ^ 2
  let r1 := s.origin - point
  let r2 := s.termination - point
  let r3 := r1.cross r2
  let r_1 := r1.norm
  let r_2 := r2.norm
  let r_3 := r3.norm
  let c_3 := r1.dot r2
  open Classical in
  if r_1 < eps ∨ r_2 < eps ∨ r_3 ^ 2 < eps then acc
  else
    let c_4 := c_1 * (r_1 + r_2) * (r_1 * r_2 - c_3) / (r_1 * r_2 * (r_3 ^ 2 + c_2))
    acc + c_4 • r3

/-- `collapsed_velocities_from_line_vortices` (aerodynamics.py 765-893): vortices in the outer loop, points
in the inner loop, accumulating in `velocities`. -/
def collapsedLine (points origins terminations : List V3) (strengths : List ℝ)
    (ages : Option (List ℝ)) (nu : ℝ) : List V3 :=
  (segs origins terminations strengths ages).foldl
    (fun velocities s => List.zipWith (collapsedStep nu s) points velocities)
    (List.replicate points.length 0)

/-- The body of the inner loop of `expanded_velocities_from_line_vortices`
(aerodynamics.py 971-1022): the value of `velocities[point_id, vortex_id]`, zero if it is not assigned. -/
def expandedEntry (nu : ℝ) (s : Seg) (point : V3) : V3 :=
  let r_c := coreRadius nu s
  let r_0 := (s.termination - s.origin).norm
  let c_1 := s.strength / (4 * Real.pi)
  let c_2 := r_0 ^ 2 * r_c ^ 2
  let r1 := s.origin - point
  let r2 := s.termination - point
  let r3 := r1.cross r2
  let r_1 := r1.norm
  let r_2 := r2.norm
  let r_3 := r3.norm
  let c_3 := r1.dot r2
  open Classical in
  if r_1 < eps ∨ r_2 < eps ∨ r_3 ^ 2 < eps then 0
  else
    let c_4 := c_1 * (r_1 + r_2) * (r_1 * r_2 - c_3) / (r_1 * r_2 * (r_3 ^ 2 + c_2))
    c_4 • r3

/-- `expanded_velocities_from_line_vortices` (aerodynamics.py 896-1024): entry `[point, vortex]`. -/
def expandedLine (points origins terminations : List V3) (strengths : List ℝ)
    (ages : Option (List ℝ)) (nu : ℝ) : List (List V3) :=
  points.map fun p => (segs origins terminations strengths ages).map fun s => expandedEntry nu s p

/-- `induced_velocities += ...` on arrays of shape (N, 3). -/
def addRow (a b : List V3) : List V3 := List.zipWith (· + ·) a b
/-- `induced_velocities += ...` on arrays of shape (N, M, 3). -/
def addGrid (a b : List (List V3)) : List (List V3) := List.zipWith addRow a b

/-- The loop `for i in range(k)` over `origins_list`/`terminations_list` of the collapsed functions
(aerodynamics.py 415-424, 585-594, 667-676). -/
def collapsedLegs (points : List V3) (legs : List (List V3 × List V3)) (strengths : List ℝ)
    (ages : Option (List ℝ)) (nu : ℝ) : List V3 :=
  legs.foldl (fun acc l => addRow acc (collapsedLine points l.1 l.2 strengths ages nu))
    (List.replicate points.length 0)

/-- The loop `for i in range(k)` over `origins_list`/`terminations_list` of the expanded functions
(aerodynamics.py 499-508, 753-762). -/
def expandedLegs (points : List V3) (legs : List (List V3 × List V3)) (strengths : List ℝ)
    (ages : Option (List ℝ)) (nu : ℝ) : List (List V3) :=
  legs.foldl (fun acc l => addGrid acc (expandedLine points l.1 l.2 strengths ages nu))
    (List.replicate points.length (List.replicate strengths.length 0))

/-- `collapsed_velocities_from_horseshoe_vortices` (aerodynamics.py 343-424). -/
def collapsedHorseshoe (points br fr fl bl : List V3) (strengths : List ℝ)
    (ages : Option (List ℝ) := none) (nu : ℝ := 0) : List V3 :=
  collapsedLegs points [(br, fr), (fr, fl), (fl, bl)] strengths ages nu

/-- `expanded_velocities_from_horseshoe_vortices` (aerodynamics.py 427-508). -/
def expandedHorseshoe (points br fr fl bl : List V3) (strengths : List ℝ)
    (ages : Option (List ℝ) := none) (nu : ℝ := 0) : List (List V3) :=
  expandedLegs points [(br, fr), (fr, fl), (fl, bl)] strengths ages nu

/-- `collapsed_velocities_from_ring_vortices` (aerodynamics.py 511-594). -/
def collapsedRing (points br fr fl bl : List V3) (strengths : List ℝ)
    (ages : Option (List ℝ) := none) (nu : ℝ := 0) : List V3 :=
  collapsedLegs points [(br, fr), (fr, fl), (fl, bl), (bl, br)] strengths ages nu

/-- `collapsed_velocities_from_ring_vortices_chordwise_segments` (aerodynamics.py 597-676). -/
def collapsedRingChordwise (points br fr fl bl : List V3) (strengths : List ℝ)
    (ages : Option (List ℝ) := none) (nu : ℝ := 0) : List V3 :=
  collapsedLegs points [(br, fr), (fl, bl)] strengths ages nu

/-- `expanded_velocities_from_ring_vortices` (aerodynamics.py 679-762). -/
def expandedRing (points br fr fl bl : List V3) (strengths : List ℝ)
    (ages : Option (List ℝ) := none) (nu : ℝ := 0) : List (List V3) :=
  expandedLegs points [(br, fr), (fr, fl), (fl, bl), (bl, br)] strengths ages nu

end

end Ptera
