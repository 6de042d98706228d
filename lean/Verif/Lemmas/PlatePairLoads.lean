import Verif.Lemmas.PlatePair
import Verif.Props.Motion
import Verif.Props.ParallelFlow
import Verif.Props.UnsteadyFlow
import Verif.Props.UnsteadyLoads

/-! Helper lemmas: the loads on two plates side by side, one of each of two airplanes, once they have started to heave.
They differ. -/

namespace Ptera

open List UnsteadySolver

namespace PlatePair

open SymmetricPlate

/-- A straight vortex in a horizontal plane induces only vertical velocities in that plane. -/
theorem flat_entry {A B q : V3} (hA : A.z = q.z) (hB : B.z = q.z) :
    (expandedEntry 0 ⟨A, B, 1, 0⟩ q).x = 0 ∧ (expandedEntry 0 ⟨A, B, 1, 0⟩ q).y = 0 := by
  rw [expandedEntry_eq]
  by_cases h : Cutoff ⟨A, B, 1, 0⟩ q
  · rw [if_pos h]; exact ⟨rfl, rfl⟩
  · rw [if_neg h]
    constructor <;> simp [V3.cross, hA, hB]

theorem flat_ring {br fr fl bl q : V3} (h1 : br.z = q.z) (h2 : fr.z = q.z) (h3 : fl.z = q.z) (h4 : bl.z = q.z) :
    (unitVelocity (ringLegs br fr fl bl) q).x = 0 ∧ (unitVelocity (ringLegs br fr fl bl) q).y = 0 := by
  unfold unitVelocity ringLegs
  simp only [List.map_cons, List.map_nil, List.sum_cons, List.sum_nil, add_zero, V3.add_x, V3.add_y]
  rw [(flat_entry h1 h2).1, (flat_entry h2 h3).1, (flat_entry h3 h4).1, (flat_entry h4 h1).1,
    (flat_entry h1 h2).2, (flat_entry h2 h3).2, (flat_entry h3 h4).2, (flat_entry h4 h1).2]
  simp

theorem strip_area {z y₀ y₁ : ℝ} {p : Panel} (h : IsStrip z y₀ y₁ p) (hy : y₀ < y₁) : p.area = y₁ - y₀ := by
  have hc : p.crossDiagonals = ⟨0, 0, 2 * (y₁ - y₀)⟩ := by
    ext <;> simp [Panel.crossDiagonals, Panel.firstDiagonal, Panel.secondDiagonal, V3.cross, h.frontLeft, h.frontRight,
      h.backLeft, h.backRight]
    ring
  unfold Panel.area
  rw [hc]
  simp only [V3.norm, V3.dot]
  rw [show (0 * 0 + 0 * 0 + 2 * (y₁ - y₀) * (2 * (y₁ - y₀)) : ℝ) = (2 * (y₁ - y₀)) ^ 2 by ring, Real.sqrt_sq (by linarith)]
  ring

/-- What the steps of the two plates are like. -/
structure Pair (p : UnsteadyProblem) (op : OperatingPoint) (z : ℕ → ℝ) (k : ℕ) (a b : Airplane) (C D : Panel) : Prop where
  op : p.operatingPointAt k = op
  airplanes : p.airplanesAt k = [a, b]
  refs : panelRefs (p.airplanesAt k) = [⟨0, 0, 0, 0⟩, ⟨1, 0, 0, 0⟩]
  left : panelAt (p.airplanesAt k) ⟨0, 0, 0, 0⟩ = some C
  right : panelAt (p.airplanesAt k) ⟨1, 0, 0, 0⟩ = some D
  stripC : IsStrip (z k) (-1) 0 C
  stripD : IsStrip (z k) 0 1 D
  point : b.xyzRef = a.xyzRef

variable {p : UnsteadyProblem} {op : OperatingPoint} {z : ℕ → ℝ} {s s' : UnsteadySolver} {pres sl : Bool}

/-- The ring of a plate. -/
theorem ring_of_strip (hα : op.alpha = 0) (hβ : op.beta = 0) {k : ℕ} (ho : p.operatingPointAt k = op) {r : PanelRef}
    {y₀ y₁ : ℝ} {C : Panel} (hC : panelAt (p.airplanesAt k) r = some C) (hS : IsStrip (z k) y₀ y₁ C) :
    (boundRing p k r).frontLeft = ⟨1 / 4, y₀, z k⟩ ∧ (boundRing p k r).frontRight = ⟨1 / 4, y₁, z k⟩ ∧
    (boundRing p k r).backLeft = ⟨5 / 4 + 0.25 * (p.deltaTime * op.velocity), y₀, z k⟩ ∧
    (boundRing p k r).backRight = ⟨5 / 4 + 0.25 * (p.deltaTime * op.velocity), y₁, z k⟩ := by
  have hfree : op.freestreamVelocity = ⟨op.velocity, 0, 0⟩ := by
    unfold OperatingPoint.freestreamVelocity
    rw [C01_freestream_direction, hα, hβ]
    ext <;> simp
  have hg := geometryOf_eq hC
  obtain ⟨-, g2, g3⟩ := hS.points
  unfold boundRing panelRing
  rw [ho]
  refine ⟨?_, ?_, ?_, ?_⟩
  · simp only [RingVortex.mk', hg, g3]
  · simp only [RingVortex.mk', hg, g2]
  · simp only [RingVortex.mk']
    unfold backLeftVertex
    simp only [hg, hS.trailing, if_true, g3, hfree]
    ext <;> simp [hS.frontLeft, hS.backLeft]
    ring
  · simp only [RingVortex.mk']
    unfold backRightVertex
    simp only [hg, hS.trailing, if_true, g2, hfree]
    ext <;> simp [hS.frontRight, hS.backRight]
    ring

/-- One step after the start the two airplanes have different loads. -/
theorem loads_differ (hmade : p.Made) (hc : p.Chordwise) (hs : Reached p s) (hrun : s.run pres sl = .ok s')
    (hn : 1 < p.numSteps) (hfirst : p.firstResultsStep ≤ 1) (hdt : 0 < p.deltaTime) (hα : op.alpha = 0)
    (hβ : op.beta = 0) (hρ : op.density ≠ 0) (hV : op.velocity * p.deltaTime ≠ 1) (hz : z 1 ≠ z 0)
    (hstep : ∀ k < p.numSteps, ∃ a b C D, Pair p op z k a b C D) :
    ∃ L M, (s'.loads 1)[0]? = some L ∧ (s'.loads 1)[1]? = some M ∧
      (L.forceWind ≠ M.forceWind ∨ L.momentWind ≠ M.momentWind) := by
  have hfree : op.freestreamVelocity = ⟨op.velocity, 0, 0⟩ := by
    unfold OperatingPoint.freestreamVelocity
    rw [C01_freestream_direction, hα, hβ]
    ext <;> simp
  obtain ⟨a₀, b₀, C₀, D₀, h0⟩ := hstep 0 (by omega)
  obtain ⟨a, b, C, D, h1⟩ := hstep 1 hn
  obtain ⟨st, sm, ht⟩ := hs.trace hmade hrun
  have hprob : s'.problem = p := ht.final_eq.2.2.2.2.2.2
  -- nothing at the first step
  have only0 : ∀ r c, panelAt (p.airplanesAt 0) r = some c → c = C₀ ∨ c = D₀ := by
    intro r c hr
    have hm := (mem_panelRefs _ _).mpr ⟨c, hr⟩
    rw [h0.refs] at hm
    simp only [List.mem_cons, List.not_mem_nil, or_false] at hm
    rcases hm with rfl | rfl
    · rw [h0.left] at hr; exact .inl (Option.some.inj hr).symm
    · rw [h0.right] at hr; exact .inr (Option.some.inj hr).symm
  obtain ⟨-, hzero, -⟩ := C73_unsteady hmade hc hs hrun 1 (by omega) (by
    intro r c hr
    rw [h0.op, hfree]
    rcases only0 r c hr with rfl | rfl
    · rw [h0.stripC.normal (by norm_num)]; simp [V3.dot]
    · rw [h0.stripD.normal (by norm_num)]; simp [V3.dot]) (by intro j hj; omega) 0 (by omega)
  obtain ⟨-, hwake⟩ := wake_idle hmade.regular hc ht hn (by
    intro j hj
    obtain rfl : j = 0 := by omega
    exact hzero)
  obtain ⟨Γ, -, hring, hbound⟩ := ht.values hmade.regular hn
  rw [h1.refs] at hring hbound
  have hflow : ∀ q, flow s' 1 q = Γ ⟨0, 0, 0, 0⟩ • unitRing p 1 ⟨0, 0, 0, 0⟩ q + Γ ⟨1, 0, 0, 0⟩ • unitRing p 1 ⟨1, 0, 0, 0⟩ q
      + ⟨op.velocity, 0, 0⟩ := by
    intro q
    unfold flow
    rw [hbound, hwake, hprob, h1.op, hfree]
    simp
  have hringC := ring_of_strip (z := z) hα hβ h1.op h1.left h1.stripC
  have hringD := ring_of_strip (z := z) hα hβ h1.op h1.right h1.stripD
  have hflat : ∀ q : V3, q.z = z 1 → (flow s' 1 q).x = op.velocity ∧ (flow s' 1 q).y = 0 := by
    intro q hq
    have eC := flat_ring (br := (boundRing p 1 ⟨0, 0, 0, 0⟩).backRight) (fr := (boundRing p 1 ⟨0, 0, 0, 0⟩).frontRight)
      (fl := (boundRing p 1 ⟨0, 0, 0, 0⟩).frontLeft) (bl := (boundRing p 1 ⟨0, 0, 0, 0⟩).backLeft) (q := q)
      (by rw [hringC.2.2.2, hq]) (by rw [hringC.2.1, hq]) (by rw [hringC.1, hq]) (by rw [hringC.2.2.1, hq])
    have eD := flat_ring (br := (boundRing p 1 ⟨1, 0, 0, 0⟩).backRight) (fr := (boundRing p 1 ⟨1, 0, 0, 0⟩).frontRight)
      (fl := (boundRing p 1 ⟨1, 0, 0, 0⟩).frontLeft) (bl := (boundRing p 1 ⟨1, 0, 0, 0⟩).backLeft) (q := q)
      (by rw [hringD.2.2.2, hq]) (by rw [hringD.2.1, hq]) (by rw [hringD.1, hq]) (by rw [hringD.2.2.1, hq])
    rw [hflow q]
    unfold unitRing
    constructor
    · simp [eC.1, eD.1]
    · simp [eC.2, eD.2]
  -- the loads of one plate
  have key : ∀ (i : ℕ) (A : Airplane) (y₀ y₁ : ℝ) (P P₀ : Panel), (p.airplanesAt 1)[i]? = some A → y₁ = y₀ + 1 →
      panelAt (p.airplanesAt 1) ⟨i, 0, 0, 0⟩ = some P → panelAt (p.airplanesAt 0) ⟨i, 0, 0, 0⟩ = some P₀ →
      IsStrip (z 1) y₀ y₁ P → IsStrip (z 0) y₀ y₁ P₀ →
      ((panelRefs (p.airplanesAt 1)).filter fun r => r.airplane = i) = [⟨i, 0, 0, 0⟩] →
      ∃ L : AirplaneLoads, ∃ F M : V3, (s'.loads 1)[i]? = some L ∧
        L.forceWind = op.rotationWindToGeometry.transpose.mulVec F ∧
        L.momentWind = op.rotationWindToGeometry.transpose.mulVec M ∧
        F.z = op.density * Γ ⟨i, 0, 0, 0⟩ * (1 / p.deltaTime - op.velocity) ∧
        M.x = ((y₀ + y₁) / 2 - A.xyzRef.y) * F.z - (z 1 - A.xyzRef.z) * F.y := by
    intro i A y₀ y₁ P P₀ hA hy hP hP₀ hS hS₀ hown
    have hmem : (⟨i, 0, 0, 0⟩ : PanelRef) ∈ [(⟨0, 0, 0, 0⟩ : PanelRef), ⟨1, 0, 0, 0⟩] := by
      rw [← h1.refs]; exact (mem_panelRefs _ _).mpr ⟨P, hP⟩
    obtain ⟨L, Q, l1, l2, l3, l4, -⟩ := C37_unsteady hmade hs hrun 1 hn hfirst i A hA
    obtain ⟨K, v, F, Lf, R, U, k1, k2, k3, k4, k5, k6, k7, k8⟩ := C35_unsteady hmade hs hrun 1 hn hfirst
      ⟨i, 0, 0, 0⟩ P A hP hA
    rw [hown] at l2 l3 l4
    simp only [List.map_cons, List.map_nil, List.sum_cons, List.sum_nil, add_zero] at l3 l4
    obtain ⟨q1, q2, q3⟩ := l2 _ (List.mem_singleton.mpr rfl)
    rw [k1, Option.some.injEq] at q1
    rw [← q1] at q2 q3 l3 l4
    rw [hring _ hmem, Option.some.injEq] at k2
    have hR := ring_of_strip (z := z) hα hβ h1.op hP hS
    have hR₀ := ring_of_strip (z := z) hα hβ h0.op hP₀ hS₀
    obtain ⟨g₀, hg₀⟩ := ht.rings (j := 0) (by omega) ((mem_panelRefs _ _).mpr ⟨P₀, hP₀⟩)
    have hst : strengthAt (p.airplanesAt 1) (s'.panels 1) ⟨i, 0, 0, 0⟩ = Γ ⟨i, 0, 0, 0⟩ := by
      rw [strengthAt_some hP, hring _ hmem]; rfl
    have hst0 : previousStrength s' 1 ⟨i, 0, 0, 0⟩ = 0 := by
      obtain ⟨w, e1, e2⟩ := hzero _ _ hP₀
      change strengthAt (s'.problem.airplanesAt 0) (s'.panels 0) _ = 0
      rw [hprob, strengthAt_some hP₀, e1]
      exact e2
    have nf : netFront (p.airplanesAt 1) (s'.panels 1) ⟨i, 0, 0, 0⟩ = Γ ⟨i, 0, 0, 0⟩ := by simp [netFront, hst]
    have nl : netLeft (p.airplanesAt 1) (s'.panels 1) ⟨i, 0, 0, 0⟩ = Γ ⟨i, 0, 0, 0⟩ := by simp [netLeft, hst]
    have rel : ∀ point : RingVortex → V3, (∀ (w : RingVortex) g, point (w.updateStrength g) = point w) →
        (point (boundRing p 1 ⟨i, 0, 0, 0⟩)).z = z 1 →
        (point (boundRing p 1 ⟨i, 0, 0, 0⟩)).x = (point (boundRing p 0 ⟨i, 0, 0, 0⟩)).x →
        (point (boundRing p 1 ⟨i, 0, 0, 0⟩)).y = (point (boundRing p 0 ⟨i, 0, 0, 0⟩)).y →
        (relativeFlow s' 1 ⟨i, 0, 0, 0⟩ point).x = op.velocity ∧ (relativeFlow s' 1 ⟨i, 0, 0, 0⟩ point).y = 0 := by
      intro point hu e1 e2 e3
      unfold relativeFlow
      have hp1 : ringPoint s' 1 ⟨i, 0, 0, 0⟩ point = point (boundRing p 1 ⟨i, 0, 0, 0⟩) := by
        unfold ringPoint; rw [hring _ hmem]; simp [hu]
      have hp0 : ringPoint s' 0 ⟨i, 0, 0, 0⟩ point = point (boundRing p 0 ⟨i, 0, 0, 0⟩) := by
        unfold ringPoint; rw [hg₀]; simp [hu]
      unfold pointVelocity
      simp only [_root_.zero_add]
      rw [hp1, hp0]
      obtain ⟨f1, f2⟩ := hflat _ e1
      constructor <;> simp [f1, f2, e2, e3]
    obtain ⟨u1, u2⟩ := rel RingVortex.frontMiddle (fun _ _ => rfl)
      (by simp [RingVortex.frontMiddle, hR.1, hR.2.1]; ring)
      (by simp [RingVortex.frontMiddle, hR.1, hR.2.1, hR₀.1, hR₀.2.1])
      (by simp [RingVortex.frontMiddle, hR.1, hR.2.1, hR₀.1, hR₀.2.1])
    obtain ⟨v1, v2⟩ := rel RingVortex.leftMiddle (fun _ _ => rfl)
      (by simp [RingVortex.leftMiddle, hR.1, hR.2.2.1]; ring)
      (by simp [RingVortex.leftMiddle, hR.1, hR.2.2.1, hR₀.1, hR₀.2.2.1])
      (by simp [RingVortex.leftMiddle, hR.1, hR.2.2.1, hR₀.1, hR₀.2.2.1])
    obtain ⟨w1, w2⟩ := rel RingVortex.rightMiddle (fun _ _ => rfl)
      (by simp [RingVortex.rightMiddle, hR.2.1, hR.2.2.2]; ring)
      (by simp [RingVortex.rightMiddle, hR.2.1, hR.2.2.2, hR₀.2.1, hR₀.2.2.2])
      (by simp [RingVortex.rightMiddle, hR.2.1, hR.2.2.2, hR₀.2.1, hR₀.2.2.2])
    have vfl : v.frontLeft = ⟨1 / 4, y₀, z 1⟩ := by rw [← k2]; exact hR.1
    have vfr : v.frontRight = ⟨1 / 4, y₁, z 1⟩ := by rw [← k2]; exact hR.2.1
    have vbl : v.backLeft = ⟨5 / 4 + 0.25 * (p.deltaTime * op.velocity), y₀, z 1⟩ := by rw [← k2]; exact hR.2.2.1
    have vbr : v.backRight = ⟨5 / 4 + 0.25 * (p.deltaTime * op.velocity), y₁, z 1⟩ := by rw [← k2]; exact hR.2.2.2
    have vst : v.strength = Γ ⟨i, 0, 0, 0⟩ := by rw [← k2]; rfl
    rw [nf, h1.op] at k3
    rw [nl, h1.op] at k4
    rw [h1.op] at k5
    rw [h1.op, hst0, sub_zero, strip_area hS (by linarith), hS.normal (by linarith), vst] at k6
    rw [h1.op] at q2 q3
    have Fz : F.z = -(op.density * Γ ⟨i, 0, 0, 0⟩ * op.velocity) ∧ F.y = 0 := by
      rw [k3, vfl, vfr]
      constructor <;> simp [kuttaJoukowski, V3.cross, u1, u2, hy]
    have Lz : Lf.z = 0 := by
      rw [k4, vfl, vbl]
      simp [kuttaJoukowski, V3.cross, v2]
    have Rz : R.z = 0 := by
      rw [k5, vfr, vbr]
      simp [kuttaJoukowski, V3.cross, w2]
    have Uz : U.z = op.density * Γ ⟨i, 0, 0, 0⟩ / p.deltaTime ∧ U.y = 0 := by
      rw [k6]
      constructor <;> simp [hy]
    refine ⟨L, K.forceGeometry, K.momentGeometry, l1, by rw [l3, q2], by rw [l4, q3], ?_, ?_⟩
    · rw [k7]
      simp only [V3.add_z]
      rw [Fz.1, Lz, Rz, Uz.1]
      ring
    · rw [k7, k8, (hS.points).1]
      simp only [RingVortex.frontMiddle, RingVortex.leftMiddle, RingVortex.rightMiddle, V3.cross, V3.add_x, V3.add_y,
        V3.add_z, V3.sub_y, V3.sub_z, V3.smul_y, V3.smul_z, vfl, vfr, vbl, vbr, Fz.1, Fz.2, Lz, Rz, Uz.1, Uz.2]
      ring
  obtain ⟨L, F, M, l1, l2, l3, l4, l5⟩ := key 0 a (-1) 0 C C₀ (by rw [h1.airplanes]; rfl) (by norm_num) h1.left h0.left
    h1.stripC h0.stripC (by rw [h1.refs]; simp)
  obtain ⟨L', F', M', m1, m2, m3, m4, m5⟩ := key 1 b 0 1 D D₀ (by rw [h1.airplanes]; rfl) (by norm_num) h1.right h0.right
    h1.stripD h0.stripD (by rw [h1.refs]; simp)
  refine ⟨L, L', l1, m1, ?_⟩
  by_contra hcon
  push Not at hcon
  obtain ⟨e1, e2⟩ := hcon
  have hrot := (C01_rotation_is_proper op).1
  have hF : F = F' := by
    rw [← hrot.mulVec_transpose F, ← l2, e1, m2, hrot.mulVec_transpose]
  have hM : M = M' := by
    rw [← hrot.mulVec_transpose M, ← l3, e2, m3, hrot.mulVec_transpose]
  subst hF hM
  rw [l5, h1.point] at m5
  have hFz : F.z = 0 := by linear_combination -m5
  have hne : 1 / p.deltaTime - op.velocity ≠ 0 := by
    intro h
    apply hV
    field_simp at h
    linarith
  have zero : ∀ g : ℝ, F.z = op.density * g * (1 / p.deltaTime - op.velocity) → g = 0 := by
    intro g hg
    rw [hFz] at hg
    rcases mul_eq_zero.mp hg.symm with h | h
    · exact (mul_eq_zero.mp h).resolve_left hρ
    · exact absurd h hne
  have g0 := zero _ l4
  have g1 := zero _ m4
  have hpen := (C45_no_penetration hmade hs hrun 1 hn _ C h1.left).2 0 C₀ rfl h0.left
  rw [hflow, g0, g1, h1.stripC.points.1, h0.stripC.points.1, h1.stripC.normal (by norm_num)] at hpen
  simp [V3.dot] at hpen
  rcases hpen with h | h
  · exact hdt.ne' h
  · exact hz (by linarith)

/-- Two plates heaving with period one second in a flow of speed one: the study, and what its steps are like. -/
theorem heaving_pair (density : ℝ) (n : ℕ) (hn : 1 < n) : ∃ am bm p,
    study [am, bm] { base := { density, velocity := 1, alpha := 0, beta := 0 } } (some n) none none (some (1 / 4)) false
      = .ok p ∧ p.Made ∧ p.Chordwise ∧ p.numSteps = n ∧ p.deltaTime = 1 / 4 ∧ 0 ≤ p.maxPeriod ∧ p.firstResultsStep = 0 ∧
    ∃ z : ℕ → ℝ, z 1 ≠ z 0 ∧ ∀ k < p.numSteps, ∃ a b C D,
      Pair p { density, velocity := 1, alpha := 0, beta := 0 } z k a b C D := by
  obtain ⟨m, hm0, hm⟩ := movement_at 1 1
  obtain ⟨-, p, hp, hmade, hsteps, hd, hper, hst⟩ :=
    hm (-1) 0 n (by omega) (1 / 4) { density, velocity := 1, alpha := 0, beta := 0 } false
  obtain ⟨-, -, -, hfirst, -, -, -, -, H, O, hH, -, hcol⟩ := study_parts hp
  have href : ∀ k < n, ∀ A ∈ p.airplanesAt k, A.xyzRef = 0 := by
    intro k hk A hA
    obtain ⟨i, hi⟩ := List.getElem?_of_mem hA
    have hc := (hcol k (by rw [hsteps]; exact hk)).1
    have hiH : i < H.length := by rw [hc.length_eq]; exact (List.getElem?_eq_some_iff.mp hi).1
    have him : i < [m (-1), m 0].length := by rw [← mapM_length hH]; exact hiH
    obtain ⟨hist, hhist, hgen⟩ := mapM_getElem? hH i _ (List.getElem?_eq_getElem him)
    obtain ⟨A', hA', hk'⟩ := forall₂_at hc i hist hhist
    rw [hi, Option.some.injEq] at hA'
    subst hA'
    have hm1 : ∃ y, [m (-1), m 0][i] = m y := by
      have := List.getElem_mem him
      simp only [List.mem_cons, List.not_mem_nil, or_false] at this
      rcases this with h | h
      · exact ⟨_, h⟩
      · exact ⟨_, h⟩
    obtain ⟨y, hy⟩ := hm1
    rw [hy] at hgen
    obtain ⟨W, -, r1, r2, r3, r4⟩ := hm0 y
    obtain ⟨fx, fy, fz, px, py, pz, -, hall⟩ := C67_airplanes _ _ _ _ hgen
    rw [(hall k A hk').1, px.1 (by rw [r2]; exact .inl rfl), py.1 (by rw [r3]; exact .inl rfl),
      pz.1 (by rw [r4]; exact .inl rfl), r1]
  refine ⟨_, _, p, hp, hmade, ?_, hsteps, hd, by rw [hper]; exact le_max_left _ _, by simpa using hfirst,
    fun k => (oscillatingSinspace 1 1 0 n (1 / 4)).getD k 0, ?_, ?_⟩
  · intro w wing hw
    by_cases hk : w.step < n
    · obtain ⟨-, a, b, u, v, C, D, c1, c2, c3, c4, c5, c6, c7, -⟩ := hst _ hk
      unfold UnsteadyProblem.wing? at hw
      rw [c1, Option.bind_eq_some_iff] at hw
      obtain ⟨x, hx, hw⟩ := hw
      have hx' := List.mem_of_getElem? hx
      simp only [List.mem_cons, List.not_mem_nil, or_false] at hx'
      rcases hx' with rfl | rfl
      · rw [c2] at hw
        have := List.mem_of_getElem? hw
        simp only [List.mem_singleton] at this
        subst this
        omega
      · rw [c3] at hw
        have := List.mem_of_getElem? hw
        simp only [List.mem_singleton] at this
        subst this
        omega
    · have hl := hmade.regular.steps
      have : p.airplanesAt w.step = [] := by
        have hnone : p.steadyProblems[w.step]? = none := by
          rw [List.getElem?_eq_none_iff, hl, hsteps]; omega
        simp [UnsteadyProblem.airplanesAt, hnone]
      simp [UnsteadyProblem.wing?, this] at hw
  · have h := C26_sine 1 1 0 n (1 / 4) one_ne_zero
    dsimp only
    rw [h.getD hn, h.getD (by omega)]
    have e : 2 * Real.pi * (((1 : ℕ) : ℝ) * (1 / 4)) / 1 = Real.pi / 2 := by push_cast; ring
    unfold sineWave
    rw [e]
    simp
  · intro k hk
    rw [hsteps] at hk
    obtain ⟨ho, a, b, u, v, C, D, c1, c2, c3, c4, c5, -, -, -, c8, c9⟩ := hst k hk
    rw [neg_add_cancel] at c8
    rw [_root_.zero_add] at c9
    refine ⟨a, b, C, D, ho, c1, ?_, ?_, ?_, c8, c9, ?_⟩
    · simp [panelRefs, airplaneRefs, c1, c2, c3, c4, c5, List.zipIdx]
    · simp [panelAt, wingAt, c1, c2, c4]
    · simp [panelAt, wingAt, c1, c3, c5]
    · rw [href k hk a (by rw [c1]; simp), href k hk b (by rw [c1]; simp)]

end PlatePair

end Ptera
