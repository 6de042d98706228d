import Verif.Lemmas.SimilarTotals
import Verif.Lemmas.PlateRun

/-!
# Steady results and the speed and density of the freestream

C63: the velocities scale with the speed, the loads with the density and the square of the speed, and the
coefficients depend on neither.
-/

namespace Ptera

theorem one_mulVec (v : V3) : M3.one.mulVec v = v := by ext <;> simp [M3.one, M3.mulVec, V3.dot]

theorem one_isRot : M3.one.IsRot := ⟨M3.one_mul _, by simp [M3.det, M3.one, V3.dot, V3.cross]⟩

/-- Every set of airplanes is its own image under the identity. -/
theorem SimilarAirplanes.refl (as : List Airplane) :
    SimilarAirplanes as as M3.one 0 (fun _ _ => false) id (fun _ => id) where
  ortho := one_isRot.1
  airplanes := by
    intro a A hA
    refine ⟨A, hA, by rw [one_mulVec, add_zero], ?_, fun w' h => ⟨w', h, rfl⟩, fun _ _ _ _ h => h⟩
    intro w W hW
    refine ⟨W, hW, rfl, rfl, rfl, ?_⟩
    intro i j p p' hp hp'
    simp only [Bool.false_eq_true, if_false, hp, Option.some.injEq] at hp'
    subst hp'
    simp only [IsImage, one_mulVec, add_zero, Bool.false_eq_true, if_false, and_self]
  onto := fun a h => ⟨a, h, rfl⟩
  injective := fun _ _ _ _ h => h

theorem imageRef_same (as : List Airplane) (r : PanelRef) : imageRef as (fun _ _ => false) (fun a _ => id a) (fun _ => id) r = r := rfl

theorem orientation_one : orientation M3.one false = 1 := by simp [orientation, M3.det, M3.one, V3.dot, V3.cross]

/-- C63: changing only the speed of the freestream by a factor `c` and its density by a factor `k` scales all
velocities and vortex strengths by `c`, all forces and moments by `k c²`, and leaves the coefficients as they are.
In particular a run that succeeds at one speed and density succeeds at all others. -/
theorem C63_speed_and_density (method : SteadyMethod) (airplanes : List Airplane) (hmade : ∀ a ∈ airplanes, a.Made)
    (op : OperatingPoint) (c k : ℝ) (hc : c ≠ 0) (heap heap' : PanelHeap) (loads loads' : List AirplaneLoads)
    (R : SteadyResults) (h : steadyRun method ⟨airplanes, op⟩ heap loads = .ok R) :
    ∃ R', steadyRun method ⟨airplanes, { op with velocity := c * op.velocity, density := k * op.density }⟩ heap' loads'
        = .ok R' ∧
      (∀ q, R'.velocity q = c • R.velocity q) ∧
      (∀ r p, panelAt airplanes r = some p → ∃ g L L', R.strength r = some g ∧ R'.strength r = some (c * g) ∧
        R.loads r = some L ∧ R'.loads r = some L' ∧
        L'.forceGeometry = (k * c ^ 2) • L.forceGeometry ∧ L'.momentGeometry = (k * c ^ 2) • L.momentGeometry ∧
        L'.forceWind = (k * c ^ 2) • L.forceWind ∧ L'.momentWind = (k * c ^ 2) • L.momentWind) ∧
      (∀ (a : ℕ) A, airplanes[a]? = some A → ∃ L L' : AirplaneLoads, R.totals[a]? = some L ∧ R'.totals[a]? = some L' ∧
        L'.forceWind = (k * c ^ 2) • L.forceWind ∧ L'.momentWind = (k * c ^ 2) • L.momentWind ∧
        (k ≠ 0 → L'.forceCoefficients = L.forceCoefficients ∧ L'.momentCoefficients = L.momentCoefficients)) := by
  set op' : OperatingPoint := { op with velocity := c * op.velocity, density := k * op.density } with hop
  have hrot : op'.rotationWindToGeometry = op.rotationWindToGeometry := rfl
  have hs : SimilarProblems ⟨airplanes, op⟩ ⟨airplanes, op'⟩ M3.one 0 (fun _ _ => false) c k id (fun _ => id) :=
    { airplanes := SimilarAirplanes.refl airplanes
      made := hmade
      made' := hmade
      nonzero := hc
      direction := by rw [one_mulVec]; rfl
      velocity := by rw [one_mulVec]; exact mul_smul c op.velocity op.freestreamDirection
      density := rfl }
  have hdet : M3.one.det = 1 := one_isRot.2
  obtain ⟨R', hR', hv, hp, ht⟩ := steady_similar (N := M3.one) method hs
    (by show op'.rotationWindToGeometry.transpose.mul M3.one = _; rw [M3.mul_one, M3.one_mul, hrot]) h heap' loads'
  refine ⟨R', hR', ?_, ?_, ?_⟩
  · intro q
    have := hv q
    rwa [one_mulVec, one_mulVec, add_zero] at this
  · intro r p hr
    obtain ⟨g, L, L', h1, h2, h3, h4, h5, h6, h7, h8⟩ := hp r p hr
    rw [imageRef_same] at h2 h4
    rw [orientation_one, mul_one] at h2
    rw [one_mulVec] at h5 h6 h7 h8
    rw [hdet, _root_.one_mul] at h6 h8
    exact ⟨g, L, L', h1, h2, h3, h4, h5, h6, h7, h8⟩
  · intro a A hA
    obtain ⟨A', L, L', h1, h2, h3, h4, h5, h6, h7⟩ := ht a A hA
    have hA' : airplanes[a]? = some A' := h1
    rw [hA, Option.some.injEq] at hA'
    subst hA'
    rw [one_mulVec] at h4 h5
    rw [hdet, _root_.one_mul] at h5
    refine ⟨L, L', h2, h3, h4, h5, ?_⟩
    intro hk
    have hkc : k * c ^ 2 ≠ 0 := mul_ne_zero hk (pow_ne_zero 2 hc)
    exact h6.scale h7 hkc (by simp only [op']; ring) rfl rfl rfl h4 h5

/-- The unit plate in a freestream from below, at every speed and density: both solvers run. -/
theorem plate_steadyRun (method : SteadyMethod) (V d : ℝ) (heap : PanelHeap) (loads : List AirplaneLoads)
    (ref : V3 := 0) :
    ∃ a : Airplane, a.Made ∧ panelRefs [a] = [⟨0, 0, 0, 0⟩] ∧ panelAt [a] ⟨0, 0, 0, 0⟩ = some unitSquare ∧
      a.xyzRef = ref ∧
      ∃ R, steadyRun method ⟨[a], { velocity := V, density := d, alpha := 90, beta := 0 }⟩ heap loads = .ok R := by
  obtain ⟨a, hmade, hrefs, hp, hspan, -, -, -, href⟩ := plate_airplane_at 1 ref
  set op : OperatingPoint := { velocity := V, density := d, alpha := 90, beta := 0 } with hop
  have hd : |op.freestreamDirection.y| ≤ op.freestreamDirection.x := by
    rw [C01_freestream_direction, show op.alpha * Real.pi / 180 = Real.pi / 2 by simp only [op]; ring]
    simp [op]
  refine ⟨a, hmade, hrefs, hp, href, ?_⟩
  cases method with
  | horseshoe =>
    obtain ⟨s, hs, -⟩ := plate_horseshoe_run op hmade hrefs hp hspan hd heap loads
    exact ⟨s.results, by simp only [steadyRun, hs]; rfl⟩
  | ring =>
    obtain ⟨s, hs, -⟩ := plate_ring_run op hmade hrefs hp hspan hd heap loads
    exact ⟨s.results, by simp only [steadyRun, hs]; rfl⟩

/-- The hypotheses are met: a plate in a freestream of 10 m/s, at three times the speed and twice the density. -/
example (method : SteadyMethod) : ∃ (a : Airplane) (R R' : SteadyResults), a.Made ∧
    steadyRun method ⟨[a], { velocity := 10, density := 1, alpha := 90, beta := 0 }⟩ = .ok R ∧
    steadyRun method ⟨[a], { velocity := 3 * 10, density := 2 * 1, alpha := 90, beta := 0 }⟩ = .ok R' ∧
    R'.velocity 0 = (3 : ℝ) • R.velocity 0 ∧
    ∃ L L' : AirplaneLoads, R.totals[0]? = some L ∧ R'.totals[0]? = some L' ∧ L'.forceWind = (18 : ℝ) • L.forceWind := by
  obtain ⟨a, hmade, -, -, -, R, hR⟩ := plate_steadyRun method 10 1 .fresh []
  obtain ⟨R', hR', hv, -, ht⟩ := C63_speed_and_density method [a] (by simpa using hmade) _ 3 2 (by norm_num) .fresh .fresh
    [] [] R hR
  obtain ⟨L, L', h1, h2, h3, -⟩ := ht 0 a rfl
  exact ⟨a, R, R', hmade, hR, hR', hv 0, L, L', h1, h2, by rw [h3]; norm_num⟩

end Ptera
