import Verif.Lemmas.Loads
import Verif.Props.Frames

/-!
# C02, C35, C37: wind axes, Kutta–Joukowski forces, totals and coefficients
-/

namespace Ptera

/-! ## C02 -/

/-- C02: in the axes the solvers report in, the freestream is `(-V, 0, 0)`. -/
theorem C02_freestream_in_wind_axes (op : OperatingPoint) :
    op.rotationWindToGeometry.transpose.mulVec op.freestreamVelocity = ⟨-op.velocity, 0, 0⟩ := by
  unfold OperatingPoint.freestreamVelocity OperatingPoint.freestreamDirection
  rw [M3.mulVec_smul, (C01_rotation_is_proper op).1.transpose_mulVec]
  ext <;> simp

/-- C02: every reported force and moment keeps its magnitude (and angles between them are kept). -/
theorem C02_magnitudes (op : OperatingPoint) (panel : Panel) (force moment : V3) :
    (panelLoads op panel force moment).forceWind.norm = force.norm ∧
    (panelLoads op panel force moment).momentWind.norm = moment.norm ∧
    (panelLoads op panel force moment).forceWind.dot (panelLoads op panel force moment).momentWind
      = force.dot moment := by
  have h := (C01_rotation_is_proper op).1.transpose
  exact ⟨h.norm _, h.norm _, h.dot _ _⟩

/-- C02: the reported coefficients of an airplane are components of its total geometry-axes force `F` (the vector
whose wind-axes image is reported) over `q s_ref`: the induced drag is the component along the freestream
direction; side force and lift are components along unit directions orthogonal to the freestream and to each
other, `drag × side = lift`, and the lift direction lies in the geometry's x-z plane, turned by alpha from z. -/
theorem C02_coefficient_directions (op : OperatingPoint) :
    ∃ side lift : V3,
      side.norm = 1 ∧ lift.norm = 1 ∧ side.dot op.freestreamDirection = 0 ∧ lift.dot op.freestreamDirection = 0 ∧
      side.dot lift = 0 ∧ op.freestreamDirection.cross side = lift ∧
      lift = ⟨-Real.sin (op.alpha * Real.pi / 180), 0, Real.cos (op.alpha * Real.pi / 180)⟩ ∧
      ∀ (heap : PanelHeap) (a : Airplane) (k : ℕ), ∃ F : V3,
        (airplaneLoads op heap a k).forceWind = op.rotationWindToGeometry.transpose.mulVec F ∧
        (airplaneLoads op heap a k).forceCoefficients
          = ⟨F.dot op.freestreamDirection / (0.5 * op.density * op.velocity ^ 2) / a.sRef,
             F.dot side / (0.5 * op.density * op.velocity ^ 2) / a.sRef,
             F.dot lift / (0.5 * op.density * op.velocity ^ 2) / a.sRef⟩ := by
  have hR := C01_rotation_is_proper op
  set R := op.rotationWindToGeometry with hRdef
  refine ⟨R.mulVec ⟨0, 1, 0⟩, R.mulVec ⟨0, 0, -1⟩, ?_, ?_, ?_, ?_, ?_, ?_, ?_, ?_⟩
  · rw [hR.1.norm]; simp [V3.norm, V3.dot]
  · rw [hR.1.norm]; simp [V3.norm, V3.dot]
  · unfold OperatingPoint.freestreamDirection; rw [← hRdef, hR.1.dot]; simp [V3.dot]
  · unfold OperatingPoint.freestreamDirection; rw [← hRdef, hR.1.dot]; simp [V3.dot]
  · rw [hR.1.dot]; simp [V3.dot]
  · unfold OperatingPoint.freestreamDirection; rw [← hRdef, hR.cross]
    congr 1
    ext <;> simp
  · rw [hRdef]
    unfold OperatingPoint.rotationWindToGeometry OperatingPoint.axesFlip OperatingPoint.alphaRotation
      OperatingPoint.betaRotation radians
    ext <;> simp [M3.mul, M3.mulVec, M3.one, V3.dot, M3.transpose]
  · intro heap a k
    refine ⟨(airplaneRefs a k).foldl (fun total r => total + (heap r).force) 0, rfl, ?_⟩
    simp only [airplaneLoads, ← hRdef]
    set F := (airplaneRefs a k).foldl (fun total r => total + (heap r).force) 0
    have e1 : F.dot (op.freestreamDirection) = -(R.transpose.mulVec F).x := by
      unfold OperatingPoint.freestreamDirection
      rw [← hRdef, M3.dot_mulVec]; simp [V3.dot]
    have e2 : F.dot (R.mulVec ⟨0, 1, 0⟩) = (R.transpose.mulVec F).y := by
      rw [M3.dot_mulVec]; simp [V3.dot]
    have e3 : F.dot (R.mulVec ⟨0, 0, -1⟩) = -(R.transpose.mulVec F).z := by
      rw [M3.dot_mulVec]; simp [V3.dot]
    rw [e1, e2, e3]
    rfl

/-! ## C35 -/

/-- Kutta–Joukowski: the force on a straight bound filament with velocity `v`, filament vector `l`. -/
noncomputable def kuttaJoukowski (density strength : ℝ) (v l : V3) : V3 := (density * strength) • v.cross l

/-- C35: the array of forces on bound segments is the Kutta–Joukowski force, segment by segment. -/
theorem C35_forces (density : ℝ) (strengths : List ℝ) (velocities vectors : List V3) (i : ℕ) (s : ℝ) (v l : V3)
    (hs : strengths[i]? = some s) (hv : velocities[i]? = some v) (hl : vectors[i]? = some l) :
    (kuttaForces density strengths velocities vectors)[i]? = some (kuttaJoukowski density s v l) := by
  unfold kuttaForces
  simp [List.getElem?_zipWith, hs, hv, hl, kuttaJoukowski]

/-- C35: that force is orthogonal to the velocity and to the segment, vanishes for zero strength, and is
proportional to density and strength. -/
theorem C35_force_laws (density strength c : ℝ) (v l : V3) :
    (kuttaJoukowski density strength v l).dot v = 0 ∧ (kuttaJoukowski density strength v l).dot l = 0 ∧
    kuttaJoukowski density 0 v l = 0 ∧
    kuttaJoukowski (c * density) strength v l = c • kuttaJoukowski density strength v l ∧
    kuttaJoukowski density (c * strength) v l = c • kuttaJoukowski density strength v l := by
  unfold kuttaJoukowski
  refine ⟨?_, ?_, ?_, ?_, ?_⟩
  · rw [V3.smul_dot, V3.cross_dot_self, mul_zero]
  · rw [V3.smul_dot, V3.cross_dot_self', mul_zero]
  · simp
  · rw [← mul_smul]; congr 1; ring
  · rw [← mul_smul]; congr 1; ring

/-- C35: the array of moments is (segment centre − reference point) × force, and moving every reference point by
`d` changes each moment by `−(d × F)`. -/
theorem C35_moments (centers references forces : List V3) (d : V3) (i : ℕ) (c r f : V3)
    (hc : centers[i]? = some c) (hr : references[i]? = some r) (hf : forces[i]? = some f) :
    (momentsAbout centers references forces)[i]? = some ((c - r).cross f) ∧
    (momentsAbout centers (references.map (· + d)) forces)[i]? = some ((c - r).cross f - d.cross f) := by
  unfold momentsAbout
  refine ⟨by simp [List.getElem?_zipWith, hc, hr, hf], ?_⟩
  simp only [List.getElem?_zipWith, List.getElem?_map, hc, hr, hf, Option.map_some]
  rw [← V3.sub_cross]
  rw [show c - (r + d) = c - r - d by abel]

example : (([1, 2] : List ℝ)[1]? = some 2) ∧ (([⟨1, 0, 0⟩, ⟨0, 1, 0⟩] : List V3)[1]? = some ⟨0, 1, 0⟩) := by simp

/-! ## C37 -/

/-- C37: after the loads have been processed, every panel carries its own row of the force and moment arrays, and
their images in wind axes. -/
theorem C37_panel_loads (op : OperatingPoint) (as : List Airplane) (F M : List V3) (heap : PanelHeap) (g : ℕ)
    (r : PanelRef) (p : Panel) (f m : V3) (hr : (panelRefs as)[g]? = some r) (hp : panelAt as r = some p)
    (hF : F[g]? = some f) (hM : M[g]? = some m) :
    ∃ L, ((processForces op as (panelRefs as) F M heap).1 r).loads = some L ∧ L.forceGeometry = f ∧
      L.momentGeometry = m ∧ L.forceWind = op.rotationWindToGeometry.transpose.mulVec f ∧
      L.momentWind = op.rotationWindToGeometry.transpose.mulVec m ∧
      L.coefficients.inducedDrag = -L.forceWind.x / p.area / (0.5 * op.density * op.velocity ^ 2) ∧
      L.coefficients.sideForce = L.forceWind.y / p.area / (0.5 * op.density * op.velocity ^ 2) ∧
      L.coefficients.lift = -L.forceWind.z / p.area / (0.5 * op.density * op.velocity ^ 2) := by
  have h := (storePanelLoads_spec op as (panelRefs as) F M heap (panelRefs_nodup as)).1 g r hr
  refine ⟨panelLoads op (geometryOf as r) (F.getD g 0) (M.getD g 0), by simp only [processForces]; rw [h], ?_⟩
  rw [List.getD_eq_getElem?_getD, List.getD_eq_getElem?_getD, hF, hM, geometryOf_eq hp]
  exact ⟨rfl, rfl, rfl, rfl, rfl, rfl, rfl⟩

/-- C37: each airplane's total force and moment, in wind axes, are the rotated sums of the rows of the force and
moment arrays that belong to its own panels, and of no other's; equivalently the sums of the rotated rows. The
coefficients are the totals over `q s_ref`, and `b_ref`, `c_ref`, `b_ref` for the moments. -/
theorem C37_totals (op : OperatingPoint) (as : List Airplane) (F M : List V3) (heap : PanelHeap)
    (hF : F.length = (panelRefs as).length) (hM : M.length = (panelRefs as).length) (k : ℕ) (a : Airplane)
    (ha : as[k]? = some a) :
    let own := fun X : List V3 => ((List.zip (panelRefs as) X).filter (fun x => x.1.airplane = k)).map Prod.snd
    let R := op.rotationWindToGeometry.transpose
    let q := 0.5 * op.density * op.velocity ^ 2
    ∃ L, (processForces op as (panelRefs as) F M heap).2[k]? = some L ∧
      L.forceWind = R.mulVec (own F).sum ∧ L.forceWind = ((own F).map R.mulVec).sum ∧
      L.momentWind = R.mulVec (own M).sum ∧ L.momentWind = ((own M).map R.mulVec).sum ∧
      L.forceCoefficients = ⟨-L.forceWind.x / (q * a.sRef), L.forceWind.y / (q * a.sRef),
        -L.forceWind.z / (q * a.sRef)⟩ ∧
      L.momentCoefficients = ⟨L.momentWind.x / (q * a.sRef * a.bRef), L.momentWind.y / (q * a.sRef * a.cRef),
        L.momentWind.z / (q * a.sRef * a.bRef)⟩ := by
  intro own R q
  set heap' := storePanelLoads op as (panelRefs as) F M heap with hh
  have hspec := (storePanelLoads_spec op as (panelRefs as) F M heap (panelRefs_nodup as)).1
  rw [← hh] at hspec
  have hFo : own F = (airplaneRefs a k).map (fun r => (heap' r).force) :=
    own_values as k a ha F hF _ (fun i r f hr hf => by
      rw [hspec i r hr]; simp [PanelState.force, panelLoads, hf])
  have hMo : own M = (airplaneRefs a k).map (fun r => (heap' r).moment) :=
    own_values as k a ha M hM _ (fun i r f hr hf => by
      rw [hspec i r hr]; simp [PanelState.moment, panelLoads, hf])
  have hL : (processForces op as (panelRefs as) F M heap).2[k]? = some (airplaneLoads op heap' a k) := by
    simp [processForces, ha, ← hh]
  have e1 : (airplaneLoads op heap' a k).forceWind = R.mulVec (own F).sum := by
    simp only [airplaneLoads]
    rw [foldl_add_sum, hFo]
  have e2 : (airplaneLoads op heap' a k).momentWind = R.mulVec (own M).sum := by
    simp only [airplaneLoads]
    rw [foldl_add_sum, hMo]
  refine ⟨airplaneLoads op heap' a k, hL, e1, by rw [e1, M3.mulVec_sum], e2, by rw [e2, M3.mulVec_sum], ?_, ?_⟩
  · simp only [airplaneLoads, div_div]; rfl
  · simp only [airplaneLoads, div_div]; rfl

/-- C37: panel coefficients weighted by panel area sum to `s_ref` times the airplane's coefficient. -/
theorem C37_area_weighted (op : OperatingPoint) (as : List Airplane) (F M : List V3) (heap : PanelHeap)
    (k : ℕ) (a : Airplane) (ha : as[k]? = some a) (hs : a.sRef ≠ 0)
    (harea : ∀ r p, panelAt as r = some p → p.area ≠ 0) :
    let res := processForces op as (panelRefs as) F M heap
    ∃ (L : AirplaneLoads) (P : PanelRef → PanelLoads), res.2[k]? = some L ∧
      (∀ r ∈ airplaneRefs a k, (res.1 r).loads = some (P r)) ∧
      ((airplaneRefs a k).map fun r => (geometryOf as r).area * (P r).coefficients.inducedDrag).sum
        = a.sRef * L.forceCoefficients.x ∧
      ((airplaneRefs a k).map fun r => (geometryOf as r).area * (P r).coefficients.sideForce).sum
        = a.sRef * L.forceCoefficients.y ∧
      ((airplaneRefs a k).map fun r => (geometryOf as r).area * (P r).coefficients.lift).sum
        = a.sRef * L.forceCoefficients.z := by
  intro res
  set heap' := storePanelLoads op as (panelRefs as) F M heap with hh
  have hspec := (storePanelLoads_spec op as (panelRefs as) F M heap (panelRefs_nodup as)).1
  rw [← hh] at hspec
  have hex : ∀ r, ∃ P : PanelLoads, r ∈ airplaneRefs a k →
      (heap' r).loads = some P ∧ P.coefficients
        = (geometryOf as r).updateCoefficients
          (op.rotationWindToGeometry.transpose.mulVec (heap' r).force) op.dynamicPressure ∧
      (geometryOf as r).area ≠ 0 := by
    intro r
    by_cases hr : r ∈ airplaneRefs a k
    · have hr' : r ∈ panelRefs as := by
        rw [← panelRefs_filter as k a ha] at hr
        exact (List.mem_filter.mp hr).1
      obtain ⟨g, hg⟩ := List.getElem?_of_mem hr'
      obtain ⟨p, hp⟩ := (mem_panelRefs as r).mp hr'
      refine ⟨_, fun _ => ⟨by rw [hspec g r hg], ?_, by rw [geometryOf_eq hp]; exact harea r p hp⟩⟩
      rw [hspec g r hg]
      rfl
    · exact ⟨⟨0, 0, 0, 0, ⟨0, 0, 0⟩⟩, fun h => absurd h hr⟩
  choose P hP using hex
  have hL : res.2[k]? = some (airplaneLoads op heap' a k) := by
    simp [res, processForces, ha, ← hh]
  set R := op.rotationWindToGeometry.transpose
  have key : ∀ (c : PanelCoefficients → ℝ) (d : V3 → ℝ), (∀ x y : V3, d (x + y) = d x + d y) → d 0 = 0 →
      (∀ (p : Panel) (f : V3) (q : ℝ), c (p.updateCoefficients f q) = d f / p.area / q) →
      ((airplaneRefs a k).map fun r => (geometryOf as r).area * c (P r).coefficients).sum
        = d (airplaneLoads op heap' a k).forceWind / op.dynamicPressure := by
    intro c d hd hd0 hc
    have hsum : ∀ l : List V3, d (R.mulVec l.sum) = (l.map fun v => d (R.mulVec v)).sum := by
      intro l
      induction l with
      | nil => simp [hd0]
      | cons v l ih => simp [M3.mulVec_add, hd, ih]
    have e : (airplaneLoads op heap' a k).forceWind
        = R.mulVec ((airplaneRefs a k).map fun r => (heap' r).force).sum := by
      simp only [airplaneLoads]; rw [foldl_add_sum]
    have hdiv : ∀ l : List ℝ, l.sum / op.dynamicPressure = (l.map fun x => x / op.dynamicPressure).sum := by
      intro l
      induction l with
      | nil => simp
      | cons x l ih => simp [add_div, ih]
    rw [e, hsum, List.map_map, hdiv, List.map_map]
    congr 1
    apply List.map_congr_left
    intro r hr
    obtain ⟨_, h2, h3⟩ := hP r hr
    rw [h2, hc]
    simp only [Function.comp]
    field_simp
  refine ⟨airplaneLoads op heap' a k, P, hL, fun r hr => (hP r hr).1, ?_, ?_, ?_⟩
  · rw [key (·.inducedDrag) (fun v => -v.x) (by intros; simp; ring) (by simp) (by intros; rfl)]
    simp only [airplaneLoads]; field_simp
  · rw [key (·.sideForce) (fun v => v.y) (by intros; simp) (by simp) (by intros; rfl)]
    simp only [airplaneLoads]; field_simp
  · rw [key (·.lift) (fun v => -v.z) (by intros; simp; ring) (by simp) (by intros; rfl)]
    simp only [airplaneLoads]; field_simp

end Ptera
