import Verif.Model.Aerodynamics

/-!
# Property C16: vortex objects stay consistent under any history of updates
-/

namespace Ptera

/-- One call a client can make on a ring vortex. -/
inductive RingOp where
  | strength (s : ℝ)
  | position (frontLeft frontRight backLeft backRight : V3)

/-- The effect of one call. -/
noncomputable def RingOp.run (r : RingVortex) : RingOp → RingVortex
  | .strength s => r.updateStrength s
  | .position fl fr bl br => r.updatePosition fl fr bl br

/-- Specification: `leg` is a straight vortex from `a` to `b` of strength `s` (vector and centre derived). -/
structure IsLeg (leg : LineVortex) (a b : V3) (s : ℝ) : Prop where
  origin : leg.origin = a
  termination : leg.termination = b
  strength : leg.strength = s
  vector : leg.vector = b - a
  center : leg.center = (1 / 2 : ℝ) • (a + b)

/-- Specification of a well-formed ring: a closed loop front right → front left → back left → back right →
front right, one strength everywhere, centre at the mean of the four corners. -/
structure RingOK (r : RingVortex) : Prop where
  front : IsLeg r.frontLeg r.frontRight r.frontLeft r.strength
  left : IsLeg r.leftLeg r.frontLeft r.backLeft r.strength
  back : IsLeg r.backLeg r.backLeft r.backRight r.strength
  right : IsLeg r.rightLeg r.backRight r.frontRight r.strength
  center : r.center = (1 / 4 : ℝ) • (r.frontLeft + r.frontRight + r.backLeft + r.backRight)

/-- The strength last set, or the initial one. -/
def lastStrength (s₀ : ℝ) : List RingOp → ℝ
  | [] => s₀
  | .strength s :: ops => lastStrength s ops
  | .position .. :: ops => lastStrength s₀ ops

/-- The corners (front left, front right, back left, back right) last set, or the initial ones. -/
def lastCorners (c₀ : V3 × V3 × V3 × V3) : List RingOp → V3 × V3 × V3 × V3
  | [] => c₀
  | .strength _ :: ops => lastCorners c₀ ops
  | .position fl fr bl br :: ops => lastCorners (fl, fr, bl, br) ops

theorem isLeg_mk' (a b : V3) (s : ℝ) : IsLeg (LineVortex.mk' a b s) a b s := by
  refine ⟨rfl, rfl, rfl, rfl, ?_⟩
  simp only [LineVortex.mk']
  ext <;> simp <;> ring

theorem IsLeg.withStrength {l : LineVortex} {a b : V3} {s : ℝ} (h : IsLeg l a b s) (s' : ℝ) :
    IsLeg { l with strength := s' } a b s' := ⟨h.1, h.2, rfl, h.4, h.5⟩

theorem centroid_eq (a b c d : V3) :
    centroidOfQuadrilateral a b c d = (1 / 4 : ℝ) • (a + b + c + d) := by
  ext <;> simp [centroidOfQuadrilateral] <;> ring

theorem ringOK_mk' (fl fr bl br : V3) (s : ℝ) : RingOK (RingVortex.mk' fl fr bl br s) :=
  ⟨isLeg_mk' _ _ _, isLeg_mk' _ _ _, isLeg_mk' _ _ _, isLeg_mk' _ _ _, centroid_eq _ _ _ _⟩

theorem ringOK_run (r : RingVortex) (op : RingOp) (h : RingOK r) : RingOK (op.run r) := by
  cases op with
  | strength s =>
    exact ⟨h.front.withStrength s, h.left.withStrength s, h.back.withStrength s, h.right.withStrength s,
      h.center⟩
  | position fl fr bl br =>
    exact ⟨isLeg_mk' _ _ _, isLeg_mk' _ _ _, isLeg_mk' _ _ _, isLeg_mk' _ _ _, centroid_eq _ _ _ _⟩

/-- C16 (ring): after any sequence of calls on a newly built ring vortex, the ring is well formed, has the
strength and the corners last set, and its age is still zero. -/
theorem C16_ring_history (fl fr bl br : V3) (s : ℝ) (ops : List RingOp) :
    let r := ops.foldl RingOp.run (RingVortex.mk' fl fr bl br s)
    RingOK r ∧ r.strength = lastStrength s ops ∧
      (r.frontLeft, r.frontRight, r.backLeft, r.backRight) = lastCorners (fl, fr, bl, br) ops ∧
      r.age = 0 := by
  have key : ∀ (ops : List RingOp) (r : RingVortex), RingOK r →
      RingOK (ops.foldl RingOp.run r) ∧ (ops.foldl RingOp.run r).strength = lastStrength r.strength ops ∧
      ((ops.foldl RingOp.run r).frontLeft, (ops.foldl RingOp.run r).frontRight,
        (ops.foldl RingOp.run r).backLeft, (ops.foldl RingOp.run r).backRight)
        = lastCorners (r.frontLeft, r.frontRight, r.backLeft, r.backRight) ops ∧
      (ops.foldl RingOp.run r).age = r.age := by
    intro ops
    induction ops with
    | nil => intro r h; exact ⟨h, rfl, rfl, rfl⟩
    | cons op ops ih =>
      intro r h
      have := ih (op.run r) (ringOK_run r op h)
      cases op <;> exact this
  exact key ops _ (ringOK_mk' fl fr bl br s)

/-- A concrete history: move, restrengthen, move again. -/
example : lastStrength 1 [.position 0 0 0 0, .strength 7, .position ⟨1, 0, 0⟩ 0 0 0] = 7 ∧
    (lastCorners (0, 0, 0, 0) [.position 0 0 0 0, .strength 7, .position ⟨1, 0, 0⟩ 0 0 0]).1 = ⟨1, 0, 0⟩ :=
  ⟨rfl, rfl⟩

/-- Specification of a well-formed horseshoe: three legs head to tail, one strength, outer legs parallel to the
given direction with the given length. -/
structure HorseshoeOK (h : HorseshoeVortex) (o t d : V3) (len : ℝ) (s : ℝ) : Prop where
  right : IsLeg h.rightLeg (o + len • d) o s
  finite : IsLeg h.finiteLeg o t s
  left : IsLeg h.leftLeg t (t + len • d) s
  strength : h.strength = s
  farRight : h.rightLegOrigin = o + len • d
  farLeft : h.leftLegTermination = t + len • d

/-- C16 (horseshoe): after any sequence of strength updates the horseshoe is well formed with the last
strength. -/
theorem C16_horseshoe_history (o t d : V3) (len s : ℝ) (updates : List ℝ) :
    HorseshoeOK (updates.foldl HorseshoeVortex.updateStrength (HorseshoeVortex.mk' o t s d len)) o t d len
      (updates.getLast?.getD s) := by
  have key : ∀ (updates : List ℝ) (h : HorseshoeVortex) (s : ℝ), HorseshoeOK h o t d len s →
      HorseshoeOK (updates.foldl HorseshoeVortex.updateStrength h) o t d len (updates.getLast?.getD s) := by
    intro updates
    induction updates with
    | nil => intro h s hh; simpa using hh
    | cons u us ih =>
      intro h s hh
      have := ih (h.updateStrength u) u
        ⟨hh.right.withStrength u, hh.finite.withStrength u, hh.left.withStrength u, rfl, hh.farRight, hh.farLeft⟩
      rw [List.getLast?_cons]
      simpa using this
  exact key updates _ s ⟨isLeg_mk' _ _ _, isLeg_mk' _ _ _, isLeg_mk' _ _ _, rfl, rfl, rfl⟩

/-- C16: for a unit direction the outer legs have exactly the given length and are parallel. -/
theorem C16_horseshoe_legs (o t d : V3) (len s : ℝ) (hd : d.norm = 1) (hlen : 0 ≤ len) :
    let h := HorseshoeVortex.mk' o t s d len
    h.rightLeg.vector.norm = len ∧ h.leftLeg.vector.norm = len ∧ h.leftLeg.vector = -h.rightLeg.vector := by
  have e1 : (HorseshoeVortex.mk' o t s d len).rightLeg.vector = -(len • d) := by
    ext <;> simp [HorseshoeVortex.mk', LineVortex.mk']
  have e2 : (HorseshoeVortex.mk' o t s d len).leftLeg.vector = len • d := by
    ext <;> simp [HorseshoeVortex.mk', LineVortex.mk']
  refine ⟨?_, ?_, ?_⟩
  · rw [e1, V3.norm_neg, V3.norm_smul, hd, abs_of_nonneg hlen, mul_one]
  · rw [e2, V3.norm_smul, hd, abs_of_nonneg hlen, mul_one]
  · rw [e1, e2, neg_neg]

example : (⟨1, 0, 0⟩ : V3).norm = 1 ∧ (0 : ℝ) ≤ 20 := by simp [V3.norm, V3.dot]

end Ptera
