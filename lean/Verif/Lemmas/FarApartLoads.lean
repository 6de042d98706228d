import Verif.Lemmas.FarApartSteps
import Verif.Props.Attitude

/-! Airplanes put together farther and farther apart: loads. -/

namespace Ptera

open Filter Topology UnsteadySolver

variable {F : Filter ℕ} {m N : ℕ} {P : ℕ → UnsteadyProblem} {d : ℕ → ℕ → V3} {q : ℕ → UnsteadyProblem}
  {pres : Bool} {s s₁ : ℕ → UnsteadySolver} {st sm : ℕ → ℕ → UnsteadySolver} {z z₁ : ℕ → UnsteadySolver}
  {zt zm : ℕ → ℕ → UnsteadySolver}

/-- The airplanes and their references. -/
theorem Assembled.airplane {d : ℕ → V3} {q : UnsteadyProblem} (h : Assembled m P d q) {i k : ℕ} (hi : i < m)
    (hk : k < q.numSteps) {a : Airplane} (ha : ((P i).airplanesAt k)[0]? = some a) :
    ∃ a', (q.airplanesAt k)[i]? = some a' ∧ a'.xyzRef = a.xyzRef + d i ∧ a'.sRef = a.sRef ∧ a'.cRef = a.cRef ∧
      a'.bRef = a.bRef := by
  obtain ⟨b, b', h1, h2, h3⟩ := h.airplanes i hi k hk
  rw [h1] at ha
  cases ha
  obtain ⟨e1, e2, e3, -, -, e4, -⟩ := C64_geometry one_isRot a b' h3
  rw [M3.one_mulVec] at e4
  exact ⟨b', h2, e4, e1, e2, e3⟩

namespace FarApproach

theorem strength_at (h : FarApproach F m N P d q) {i j : ℕ} (hi : i < m) (hj : j < N)
    (hst : FarStrengths F P q s₁ z₁ i j) {r : PanelRef} (hr : r.airplane = 0) :
    Tendsto (fun n => strengthAt ((q n).airplanesAt j) ((z₁ n).panels j) (r.ofAirplane i)) F
      (𝓝 (strengthAt ((P i).airplanesAt j) ((s₁ i).panels j) r)) := by
  cases hp : panelAt ((P i).airplanesAt j) r with
  | none =>
    have hn : ∀ n, panelAt ((q n).airplanesAt j) (r.ofAirplane i) = none := by
      intro n
      cases hq : panelAt ((q n).airplanesAt j) (r.ofAirplane i) with
      | none => rfl
      | some e =>
        obtain ⟨-, e', he'⟩ := (h.assembled n).panel' (h.step hj n) hq
        rw [Assembled.ofAirplane_alone hr] at he'
        have he2 : panelAt ((P i).airplanesAt j) r = some e' := he'
        rw [hp] at he2; cases he2
    have hz : ∀ n, strengthAt ((q n).airplanesAt j) ((z₁ n).panels j) (r.ofAirplane i) = 0 :=
      fun n => strengthAt_none (hn n)
    rw [strengthAt_none hp]
    simp only [hz]
    exact tendsto_const_nhds
  | some e =>
    obtain ⟨g₀, g, h1, h2, h3⟩ := hst r ((mem_panelRefs _ _).mpr ⟨e, hp⟩)
    have hn : ∀ n, strengthAt ((q n).airplanesAt j) ((z₁ n).panels j) (r.ofAirplane i) = g n := by
      intro n
      obtain ⟨-, e', he', -⟩ := (h.assembled n).panel hi (h.step hj n) hp
      rw [strengthAt_some he', h2 n]
      rfl
    rw [strengthAt_some hp, h1]
    simp only [hn]
    exact h3

/-- A point kept with a ring. -/
def Rides (mid : RingVortex → V3) : Prop :=
  (∀ (v : RingVortex) g, mid (v.updateStrength g) = mid v) ∧
  ∀ (v v' : RingVortex) (t : V3), v'.frontLeft = v.frontLeft + t → v'.frontRight = v.frontRight + t →
    v'.backLeft = v.backLeft + t → v'.backRight = v.backRight + t → mid v' = mid v + t

theorem rides_front : Rides RingVortex.frontMiddle := by
  refine ⟨fun _ _ => rfl, fun v v' t h1 h2 h3 h4 => ?_⟩
  show (1 / 2 : ℝ) • (v'.frontRight + v'.frontLeft) = (1 / 2 : ℝ) • (v.frontRight + v.frontLeft) + t
  rw [h1, h2]
  ext <;> simp <;> ring

theorem rides_left : Rides RingVortex.leftMiddle := by
  refine ⟨fun _ _ => rfl, fun v v' t h1 h2 h3 h4 => ?_⟩
  show (1 / 2 : ℝ) • (v'.frontLeft + v'.backLeft) = (1 / 2 : ℝ) • (v.frontLeft + v.backLeft) + t
  rw [h1, h3]
  ext <;> simp <;> ring

theorem rides_right : Rides RingVortex.rightMiddle := by
  refine ⟨fun _ _ => rfl, fun v v' t h1 h2 h3 h4 => ?_⟩
  show (1 / 2 : ℝ) • (v'.backRight + v'.frontRight) = (1 / 2 : ℝ) • (v.backRight + v.frontRight) + t
  rw [h4, h2]
  ext <;> simp <;> ring

theorem middle (h : FarApproach F m N P d q) {i k : ℕ} (hi : i < m) (hk : k < N) {r : PanelRef}
    (hr : r ∈ panelRefs ((P i).airplanesAt k)) {mid : RingVortex → V3} (hm : Rides mid) (n : ℕ) :
    mid (boundRing (q n) k (r.ofAirplane i)) = mid (boundRing (P i) k r) + d n i := by
  obtain ⟨pan, hp⟩ := (mem_panelRefs _ _).mp hr
  obtain ⟨e1, e2, e3, e4⟩ := (h.assembled n).ring (h.made i hi) (h.made' n) hi (h.step hk n) hp
  exact hm.2 _ _ _ e1 e2 e3 e4

theorem point (h : FarApproach F m N P d q) {i k : ℕ} (hi : i < m) (hk : k < N) (hst : FarStrengths F P q s₁ z₁ i k)
    {r : PanelRef} (hr : r ∈ panelRefs ((P i).airplanesAt k)) {mid : RingVortex → V3} (hm : Rides mid) (n : ℕ) :
    ringPoint (z₁ n) k (r.ofAirplane i) mid = ringPoint (s₁ i) k r mid + d n i := by
  obtain ⟨g₀, g, h1, h2, -⟩ := hst r hr
  unfold ringPoint
  simp only [h1, h2, Option.map_some, Option.getD_some, hm.1]
  exact h.middle hi hk hr hm n

theorem relative (h : FarApproach F m N P d q) (ht : ∀ i < m, Trace (P i) pres (s i) (s₁ i) (st i) (sm i))
    (ht' : ∀ n, Trace (q n) pres (z n) (z₁ n) (zt n) (zm n)) {i : ℕ} (hi : i < m)
    (hst : ∀ k < N, FarStrengths F P q s₁ z₁ i k ∧ FarFlow F d s₁ z₁ i k) {k : ℕ} (hk : k < N)
    {r : PanelRef} (hr : r ∈ panelRefs ((P i).airplanesAt k)) {mid : RingVortex → V3} (hm : Rides mid)
    (hcut : ∀ f ∈ (s₁ i).filaments k, f.OffBorder (ringPoint (s₁ i) k r mid)) :
    V3.Tends (fun n => relativeFlow (z₁ n) k (r.ofAirplane i) mid) F (relativeFlow (s₁ i) k r mid) := by
  have hpt := h.point hi hk (hst k hk).1 hr hm
  unfold relativeFlow
  simp only [hpt]
  refine ((hst k hk).2 _ _ hcut (V3.Tends.const _)).sub ?_
  cases k with
  | zero =>
    simp only [pointVelocity]
    exact V3.Tends.const 0
  | succ k =>
    simp only [pointVelocity]
    rw [(ht i hi).final_eq.2.2.2.2.2.2]
    simp only [fun n => (ht' n).final_eq.2.2.2.2.2.2]
    have hk0 : k < N := by omega
    have hr' : r ∈ panelRefs ((P i).airplanesAt k) := by
      rw [panelRefs_same (h.made i hi).regular (h.step₀ hi hk0) (h.step₀ hi hk)]
      exact hr
    have hpt' := h.point hi hk0 (hst k hk0).1 hr' hm
    have e : ∀ x y t : V3, x + t - (y + t) = x - y := fun x y t => by abel
    simp only [hpt, hpt', e, fun n => ((h.assembled n).deltaTime i hi).symm]
    exact V3.Tends.const _

theorem panel_loads (h : FarApproach F m N P d q) {sl : ℕ → Bool} {sl' : ℕ → Bool}
    (hr : ∀ i < m, Reached (P i) (s i)) (hz : ∀ n, Reached (q n) (z n)) (hrun : ∀ i < m, (s i).run pres (sl i) = .ok (s₁ i))
    (hrun' : ∀ n, (z n).run pres (sl' n) = .ok (z₁ n)) (hcut : ∀ i < m, OffBorders (P i) pres (s₁ i)) {i k : ℕ}
    (hi : i < m) (hk : k < N) (hfirst : (P i).firstResultsStep ≤ (k : ℤ)) (r : PanelRef) (pan : Panel)
    (hd : panelAt ((P i).airplanesAt k) r = some pan) :
    ∃ (L : PanelLoads) (f g : ℕ → V3), ((s₁ i).panels k r).loads = some L ∧
      (∀ n, (q n).firstResultsStep ≤ (k : ℤ) → ∃ L', ((z₁ n).panels k (r.ofAirplane i)).loads = some L' ∧
        L'.forceGeometry = f n ∧ L'.momentGeometry = g n) ∧
      V3.Tends f F L.forceGeometry ∧ V3.Tends g F L.momentGeometry := by
  have : Inhabited UnsteadySolver := ⟨s i⟩
  obtain ⟨st, hst⟩ := exists_family (m := m) fun i hi => (hr i hi).trace (h.made i hi) (hrun i hi)
  obtain ⟨sm, ht⟩ := exists_family (m := m) hst
  choose zt zm ht' using fun n => (hz n).trace (h.made' n) (hrun' n)
  have hall := fun k hk => (h.steps ht ht' hcut k hk i hi).2
  have hmem : r ∈ panelRefs ((P i).airplanesAt k) := (mem_panelRefs _ _).mpr ⟨pan, hd⟩
  have hr0 : r.airplane = 0 := (h.assembled 0).ref_zero hi (h.step hk 0) hmem
  obtain ⟨A, w, hA, -, -⟩ := panelAt_cell hd
  have hA0 : ((P i).airplanesAt k)[0]? = some A := by rw [← hr0]; exact hA
  choose B hB hBref hB' using fun n => (h.assembled n).airplane hi (h.step hk n) hA0
  choose pan' hd' himg using fun n => ((h.assembled n).panel hi (h.step hk n) hd).2
  obtain ⟨L, v, Fo, Lf, R, U, h1, h2, h3, h4, h5, h6, h7, h8⟩ := C35_unsteady (h.made i hi) (hr i hi) (hrun i hi) k
    (h.step₀ hi hk) hfirst r pan A hd hA
  obtain ⟨e₀, e, hv1, hv2, he⟩ := (hall k hk).1 r hmem
  rw [h2, Option.some.injEq] at hv1
  have hop := fun n => ((h.assembled n).flow i hi k (h.step hk n)).symm
  have hdt := fun n => ((h.assembled n).deltaTime i hi).symm
  have hnet := fun (r : PanelRef) (h0 : r.airplane = 0) => h.strength_at hi hk (hall k hk).1 h0
  have n1 : Tendsto (fun n => netFront ((q n).airplanesAt k) ((z₁ n).panels k) (r.ofAirplane i)) F
      (𝓝 (netFront ((P i).airplanesAt k) ((s₁ i).panels k) r)) := by
    unfold netFront
    have e : (r.ofAirplane i).row = r.row := rfl
    rw [e]
    by_cases h0 : r.row = 0
    · simp only [h0, if_true]
      exact (hnet r hr0).sub tendsto_const_nhds
    · simp only [h0, if_false]
      exact (hnet r hr0).sub (hnet { r with row := r.row - 1 } hr0)
  have n2 : Tendsto (fun n => netLeft ((q n).airplanesAt k) ((z₁ n).panels k) (r.ofAirplane i)) F
      (𝓝 (netLeft ((P i).airplanesAt k) ((s₁ i).panels k) r)) := by
    unfold netLeft
    have e : (r.ofAirplane i).col = r.col := rfl
    rw [e]
    by_cases h0 : r.col = 0
    · simp only [h0, if_true]
      exact (hnet r hr0).sub tendsto_const_nhds
    · simp only [h0, if_false]
      exact (hnet r hr0).sub (hnet { r with col := r.col - 1 } hr0)
  have n3 : Tendsto (fun n => netRight ((q n).airplanesAt k) ((z₁ n).panels k) (r.ofAirplane i)) F
      (𝓝 (netRight ((P i).airplanesAt k) ((s₁ i).panels k) r)) := by
    unfold netRight
    exact (hnet r hr0).sub (hnet { r with col := r.col + 1 } hr0)
  have hprev : Tendsto (fun n => previousStrength (z₁ n) k (r.ofAirplane i)) F (𝓝 (previousStrength (s₁ i) k r)) := by
    cases k with
    | zero => exact tendsto_const_nhds
    | succ k =>
      simp only [previousStrength]
      rw [(ht i hi).final_eq.2.2.2.2.2.2]
      simp only [fun n => (ht' n).final_eq.2.2.2.2.2.2]
      exact h.strength_at hi (by omega) (hall k (by omega)).1 hr0
  have hpoint : ∀ mid : RingVortex → V3, ringPoint (s₁ i) k r mid = mid v := by
    intro mid
    unfold ringPoint
    rw [h2]
    rfl
  have r1 := h.relative ht ht' hi hall hk hmem rides_front
    (hcut i hi k (h.step₀ hi hk) _ (.middle hd h2 (by rw [hpoint]; exact Or.inl rfl)))
  have r2 := h.relative ht ht' hi hall hk hmem rides_left
    (hcut i hi k (h.step₀ hi hk) _ (.middle hd h2 (by rw [hpoint]; exact Or.inr (Or.inl rfl))))
  have r3 := h.relative ht ht' hi hall hk hmem rides_right
    (hcut i hi k (h.step₀ hi hk) _ (.middle hd h2 (by rw [hpoint]; exact Or.inr (Or.inr rfl))))
  have sub : ∀ x y t : V3, x + t - (y + t) = x - y := fun x y t => by abel
  have kj : ∀ {g : ℕ → ℝ} {g₀ : ℝ} {u : ℕ → V3} {u₀ : V3} (ρ : ℝ) (x : V3), Tendsto g F (𝓝 g₀) → V3.Tends u F u₀ →
      V3.Tends (fun n => kuttaJoukowski ρ (g n) (u n) x) F (kuttaJoukowski ρ g₀ u₀ x) := fun ρ x hg hu =>
    UnsteadyApproach.kuttaJoukowski_tends tendsto_const_nhds hg hu (V3.Tends.const x)
  set ρ := ((P i).operatingPointAt k).density with hρ
  have hF := kj ρ (v.frontLeft - v.frontRight) n1 r1
  have hL := kj ρ (v.backLeft - v.frontLeft) n2 r2
  have hR := kj ρ (v.frontRight - v.backRight) n3 r3
  have hU : V3.Tends (fun n => (ρ * (e n - previousStrength (z₁ n) k (r.ofAirplane i)) * pan.area
      / (P i).deltaTime) • pan.unitNormal) F
      ((ρ * (e₀ - previousStrength (s₁ i) k r) * pan.area / (P i).deltaTime) • pan.unitNormal) :=
    V3.Tends.smul ((((he.sub hprev).const_mul ρ).mul_const _).div_const _) (V3.Tends.const _)
  rw [← h3] at hF
  rw [← h4] at hL
  rw [← h5] at hR
  have hve : v.strength = e₀ := by rw [hv1]; rfl
  rw [← hve, ← h6] at hU
  have hforce := ((hF.add hL).add hR).add hU
  have hmoment := ((((V3.Tends.const (v.frontMiddle - A.xyzRef)).cross hF).add
    ((V3.Tends.const (v.leftMiddle - A.xyzRef)).cross hL)).add
    ((V3.Tends.const (v.rightMiddle - A.xyzRef)).cross hR)).add
    ((V3.Tends.const (pan.collocationPoint - A.xyzRef)).cross hU)
  rw [← h7] at hforce
  rw [← h8] at hmoment
  refine ⟨L, _, _, h1, ?_, hforce, hmoment⟩
  intro n hfn
  obtain ⟨L', v', Fo', Lf', R', U', g1, g2, g3, g4, g5, g6, g7, g8⟩ := C35_unsteady (h.made' n) (hz n) (hrun' n) k
    (h.step hk n) hfn (r.ofAirplane i) (pan' n) (B n) (hd' n) (hB n)
  have hv' := hv2 n
  rw [g2, Option.some.injEq] at hv'
  obtain ⟨c1, c2, c3, c4⟩ := (h.assembled n).ring (h.made i hi) (h.made' n) hi (h.step hk n) hd
  have b1 : v'.frontLeft = v.frontLeft + d n i := by rw [hv', hv1]; exact c1
  have b2 : v'.frontRight = v.frontRight + d n i := by rw [hv', hv1]; exact c2
  have b3 : v'.backLeft = v.backLeft + d n i := by rw [hv', hv1]; exact c3
  have b4 : v'.backRight = v.backRight + d n i := by rw [hv', hv1]; exact c4
  have b5 : v'.strength = e n := by rw [hv']; rfl
  have b6 : (pan' n).collocationPoint = pan.collocationPoint + d n i := by
    have := (himg n).points.2.2
    rwa [M3.one_mulVec] at this
  have b7 : (pan' n).unitNormal = pan.unitNormal := by
    rw [(himg n).normal one_isRot.1, M3.one_mulVec, orientation_one, one_smul]
  have b8 : (pan' n).area = pan.area := (himg n).area one_isRot.1
  rw [hop n, b1, b2, sub] at g3
  rw [hop n, b1, b3, sub] at g4
  rw [hop n, b2, b4, sub] at g5
  rw [hop n, hdt n, b5, b7, b8] at g6
  refine ⟨L', g1, ?_, ?_⟩
  · rw [g7, g3, g4, g5, g6]
  · rw [g8, hBref n, rides_front.2 v v' _ b1 b2 b3 b4, rides_left.2 v v' _ b1 b2 b3 b4, rides_right.2 v v' _ b1 b2 b3 b4,
      b6, sub, sub, sub, sub, g3, g4, g5, g6]

/-- Loads in wind axes and totals. -/
theorem loads (h : FarApproach F m N P d q) {sl : ℕ → Bool} {sl' : ℕ → Bool}
    (hr : ∀ i < m, Reached (P i) (s i)) (hz : ∀ n, Reached (q n) (z n)) (hrun : ∀ i < m, (s i).run pres (sl i) = .ok (s₁ i))
    (hrun' : ∀ n, (z n).run pres (sl' n) = .ok (z₁ n)) (hcut : ∀ i < m, OffBorders (P i) pres (s₁ i)) {i k : ℕ}
    (hi : i < m) (hk : k < N) (hfirst : (P i).firstResultsStep ≤ (k : ℤ)) :
    ∃ (T : AirplaneLoads) (T' : ℕ → AirplaneLoads) (Q : PanelRef → PanelLoads) (Q' : ℕ → PanelRef → V3 × V3),
      ((s₁ i).loads k)[0]? = some T ∧ (∀ n, (q n).firstResultsStep ≤ (k : ℤ) → ((z₁ n).loads k)[i]? = some (T' n)) ∧
      V3.Tends (fun n => (T' n).forceWind) F T.forceWind ∧ V3.Tends (fun n => (T' n).momentWind) F T.momentWind ∧
      V3.Tends (fun n => (T' n).forceCoefficients) F T.forceCoefficients ∧
      V3.Tends (fun n => (T' n).momentCoefficients) F T.momentCoefficients ∧
      ∀ r ∈ panelRefs ((P i).airplanesAt k), ((s₁ i).panels k r).loads = some (Q r) ∧
        (∀ n, (q n).firstResultsStep ≤ (k : ℤ) → ∃ L', ((z₁ n).panels k (r.ofAirplane i)).loads = some L' ∧
          L'.forceWind = (Q' n r).1 ∧ L'.momentWind = (Q' n r).2) ∧
        V3.Tends (fun n => (Q' n r).1) F (Q r).forceWind ∧ V3.Tends (fun n => (Q' n r).2) F (Q r).momentWind := by
  obtain ⟨A, -, h1, -⟩ := (h.assembled 0).airplanes i hi k (h.step hk 0)
  have hA : ((P i).airplanesAt k)[0]? = some A := by rw [h1]; rfl
  choose B hB hBref hBs hBc hBb using fun n => (h.assembled n).airplane hi (h.step hk n) hA
  obtain ⟨T, Q, t1, t2, t3, t4, t5, t6⟩ := C37_unsteady (h.made i hi) (hr i hi) (hrun i hi) k (h.step₀ hi hk) hfirst 0 A hA
  have hown : ((panelRefs ((P i).airplanesAt k)).filter fun r => r.airplane = 0) = panelRefs ((P i).airplanesAt k) := by
    rw [List.filter_eq_self]
    intro r hr
    simpa using (h.assembled 0).ref_zero hi (h.step hk 0) hr
  rw [hown] at t2 t3 t4
  set R := ((P i).operatingPointAt k).rotationWindToGeometry.transpose with hR
  set D := 0.5 * ((P i).operatingPointAt k).density * ((P i).operatingPointAt k).velocity ^ 2 with hD
  have hpl : ∀ r, ∃ f g : ℕ → V3, r ∈ panelRefs ((P i).airplanesAt k) →
      (∀ n, (q n).firstResultsStep ≤ (k : ℤ) → ∃ L', ((z₁ n).panels k (r.ofAirplane i)).loads = some L' ∧
        L'.forceGeometry = f n ∧ L'.momentGeometry = g n) ∧
      V3.Tends f F (Q r).forceGeometry ∧ V3.Tends g F (Q r).momentGeometry := by
    intro r
    by_cases hrm : r ∈ panelRefs ((P i).airplanesAt k)
    · obtain ⟨pan, hp⟩ := (mem_panelRefs _ _).mp hrm
      obtain ⟨L, f, g, l1, l2, l3, l4⟩ := h.panel_loads hr hz hrun hrun' hcut hi hk hfirst r pan hp
      have := (t2 r hrm).1
      rw [l1, Option.some.injEq] at this
      subst this
      exact ⟨f, g, fun _ => ⟨l2, l3, l4⟩⟩
    · exact ⟨fun _ => 0, fun _ => 0, fun h => absurd h hrm⟩
  choose f g hfg using hpl
  have hwind : ∀ r ∈ panelRefs ((P i).airplanesAt k), V3.Tends (fun n => R.mulVec (f r n)) F (Q r).forceWind ∧
      V3.Tends (fun n => R.mulVec (g r n)) F (Q r).momentWind := by
    intro r hrm
    obtain ⟨-, q2, q3⟩ := t2 r hrm
    rw [q2, q3]
    exact ⟨V3.Tends.mulVec R (hfg r hrm).2.1, V3.Tends.mulVec R (hfg r hrm).2.2⟩
  set FW : ℕ → V3 := fun n => ((panelRefs ((P i).airplanesAt k)).map fun r => R.mulVec (f r n)).sum with hFW
  set MW : ℕ → V3 := fun n => ((panelRefs ((P i).airplanesAt k)).map fun r => R.mulVec (g r n)).sum with hMW
  have hF : V3.Tends FW F T.forceWind := by
    rw [t3]
    exact V3.Tends.listSum _ fun r hr => (hwind r hr).1
  have hM : V3.Tends MW F T.momentWind := by
    rw [t4]
    exact V3.Tends.listSum _ fun r hr => (hwind r hr).2
  -- the joint runs at steps with results
  have key : ∀ n, (q n).firstResultsStep ≤ (k : ℤ) → ∃ T', ((z₁ n).loads k)[i]? = some T' ∧ T'.forceWind = FW n ∧
      T'.momentWind = MW n ∧
      T'.forceCoefficients = ⟨-(FW n).x / (D * A.sRef), (FW n).y / (D * A.sRef), -(FW n).z / (D * A.sRef)⟩ ∧
      T'.momentCoefficients = ⟨(MW n).x / (D * A.sRef * A.bRef), (MW n).y / (D * A.sRef * A.cRef),
        (MW n).z / (D * A.sRef * A.bRef)⟩ ∧
      ∀ r ∈ panelRefs ((P i).airplanesAt k), ∃ L', ((z₁ n).panels k (r.ofAirplane i)).loads = some L' ∧
          L'.forceWind = R.mulVec (f r n) ∧ L'.momentWind = R.mulVec (g r n) := by
    intro n hfn
    obtain ⟨T', Q', u1, u2, u3, u4, u5, u6⟩ := C37_unsteady (h.made' n) (hz n) (hrun' n) k (h.step hk n) hfn i (B n) (hB n)
    have hop := ((h.assembled n).flow i hi k (h.step hk n)).symm
    rw [hop, ← hR] at u2
    have hpan : ∀ r ∈ panelRefs ((P i).airplanesAt k), ((z₁ n).panels k (r.ofAirplane i)).loads = some (Q' (r.ofAirplane i)) ∧
        (Q' (r.ofAirplane i)).forceWind = R.mulVec (f r n) ∧ (Q' (r.ofAirplane i)).momentWind = R.mulVec (g r n) := by
      intro r hrm
      obtain ⟨q1, q2, q3⟩ := u2 (r.ofAirplane i) (List.mem_filter.mpr
        ⟨(h.assembled n).ref_mem hi (h.step hk n) hrm, by simp [PanelRef.ofAirplane]⟩)
      obtain ⟨L', l1, l2, l3⟩ := (hfg r hrm).1 n hfn
      rw [l1, Option.some.injEq] at q1
      subst q1
      exact ⟨l1, by rw [q2, l2], by rw [q3, l3]⟩
    have e3 : T'.forceWind = FW n := by
      rw [u3, (((h.assembled n).own hi (h.step hk n)).map _).sum_eq, List.map_map]
      exact congrArg List.sum (List.map_congr_left fun r hr => (hpan r hr).2.1)
    have e4 : T'.momentWind = MW n := by
      rw [u4, (((h.assembled n).own hi (h.step hk n)).map _).sum_eq, List.map_map]
      exact congrArg List.sum (List.map_congr_left fun r hr => (hpan r hr).2.2)
    rw [e3, hop, hBs n, ← hD] at u5
    rw [e4, hop, hBs n, hBb n, hBc n, ← hD] at u6
    exact ⟨T', u1, e3, e4, u5, u6, fun r hr => ⟨_, hpan r hr⟩⟩
  refine ⟨T, fun n => (⟨FW n, MW n,
      ⟨-(FW n).x / (D * A.sRef), (FW n).y / (D * A.sRef), -(FW n).z / (D * A.sRef)⟩,
      ⟨(MW n).x / (D * A.sRef * A.bRef), (MW n).y / (D * A.sRef * A.cRef),
        (MW n).z / (D * A.sRef * A.bRef)⟩⟩ : AirplaneLoads), Q, fun n r => (R.mulVec (f r n), R.mulVec (g r n)), t1, ?_, hF, hM, ?_, ?_, ?_⟩
  · intro n hfn
    obtain ⟨T', k1, k2, k3, k4, k5, -⟩ := key n hfn
    rw [k1]
    cases T'
    simp only at k2 k3 k4 k5
    subst k2 k3 k4 k5
    rfl
  · rw [t5]
    exact ⟨hF.1.neg.div_const _, hF.2.1.div_const _, hF.2.2.neg.div_const _⟩
  · rw [t6]
    exact ⟨hM.1.div_const _, hM.2.1.div_const _, hM.2.2.div_const _⟩
  · intro r hrm
    refine ⟨(t2 r hrm).1, ?_, hwind r hrm⟩
    intro n hfn
    exact (key n hfn).choose_spec.2.2.2.2.2 r hrm

/-- From some point on, every step shows of every airplane what the airplane alone shows, up to `ε`. -/
theorem near (h : FarApproach F m N P d q) {sl : ℕ → Bool} {sl' : ℕ → Bool}
    (hr : ∀ i < m, Reached (P i) (s i)) (hz : ∀ n, Reached (q n) (z n)) (hrun : ∀ i < m, (s i).run pres (sl i) = .ok (s₁ i))
    (hrun' : ∀ n, (z n).run pres (sl' n) = .ok (z₁ n)) (hcut : ∀ i < m, OffBorders (P i) pres (s₁ i)) {ε : ℝ}
    (hε : 0 < ε) : ∀ᶠ n in F, ∀ i < m, ∀ k < N, AirplaneStepNear (P i) (q n) i (d n i) ε (s₁ i) (z₁ n) k := by
  have hfin : ∀ᶠ n in F, ∀ i ∈ Finset.range m, ∀ k ∈ Finset.range N,
      AirplaneStepNear (P i) (q n) i (d n i) ε (s₁ i) (z₁ n) k := by
    rw [Filter.eventually_all_finset]
    intro i hi
    rw [Filter.eventually_all_finset]
    intro k hk
    rw [Finset.mem_range] at hi hk
    have : Inhabited UnsteadySolver := ⟨s i⟩
    obtain ⟨st, hst⟩ := exists_family fun i hi => (hr i hi).trace (h.made i hi) (hrun i hi)
    obtain ⟨sm, ht⟩ := exists_family hst
    choose zt zm ht' using fun n => (hz n).trace (h.made' n) (hrun' n)
    have hall := h.steps ht ht' hcut
    have num : ∀ {f : ℕ → ℝ} {c : ℝ}, Tendsto f F (𝓝 c) → ∀ᶠ n in F, |f n - c| < ε := by
      intro f c hf
      exact (Metric.tendsto_nhds.mp hf ε hε).mono fun n hn => by rwa [Real.dist_eq] at hn
    have h1 : ∀ᶠ n in F, ∀ r ∈ panelRefs ((P i).airplanesAt k), ∃ v v', ((s₁ i).panels k r).ring = some v ∧
        ((z₁ n).panels k (r.ofAirplane i)).ring = some v' ∧ v'.frontLeft = v.frontLeft + d n i ∧
        v'.frontRight = v.frontRight + d n i ∧ v'.backLeft = v.backLeft + d n i ∧ v'.backRight = v.backRight + d n i ∧
        |v'.strength - v.strength| < ε := by
      apply eventually_list
      intro r hr
      obtain ⟨pan, hp⟩ := (mem_panelRefs _ _).mp hr
      obtain ⟨g₀, g, e1, e2, e3⟩ := (hall k hk i hi).2.1 r hr
      filter_upwards [num e3] with n f0
      obtain ⟨c1, c2, c3, c4⟩ := (h.assembled n).ring (h.made i hi) (h.made' n) hi (h.step hk n) hp
      exact ⟨_, _, e1, e2 n, c1, c2, c3, c4, f0⟩
    have h2 : ∀ᶠ n in F, ∀ c ∈ wakePlaces (P i) k, ∃ w w', wakeRecord (s₁ i) k c = some w ∧
        wakeRecord (z₁ n) k (c.ofAirplane i) = some w' ∧
        (w'.frontLeft - (w.frontLeft + d n i)).norm < ε ∧ (w'.frontRight - (w.frontRight + d n i)).norm < ε ∧
        (w'.backLeft - (w.backLeft + d n i)).norm < ε ∧ (w'.backRight - (w.backRight + d n i)).norm < ε ∧
        |w'.strength - w.strength| < ε ∧ w'.age = w.age := by
      apply eventually_list
      intro c hc
      have turn : ∀ a b t : V3, a - t - b = a - (b + t) := fun a b t => by abel
      obtain ⟨c1, c2, c3, c4, c5, c6⟩ := h.place_ring hi hk (hall k hk i hi).1
        (fun j hj => (hall j (by omega) i hi).2.1) hc
      filter_upwards [c1.close hε, c2.close hε, c3.close hε, c4.close hε, num c5] with n f1 f2 f3 f4 f5
      rw [turn] at f1 f2 f3 f4
      exact ⟨_, _, (ht i hi).wakeRecord (h.step₀ hi hk) hc, (ht' n).wakeRecord (h.step hk n)
        ((h.assembled n).place_mem h.made (h.made' n) hi (h.step hk n) hc), f1, f2, f3, f4, f5, c6 n⟩
    have h3 : (P i).firstResultsStep ≤ (k : ℤ) → ∀ᶠ n in F, (q n).firstResultsStep ≤ (k : ℤ) →
        ∀ r ∈ panelRefs ((P i).airplanesAt k), ∃ L L',
        ((s₁ i).panels k r).loads = some L ∧ ((z₁ n).panels k (r.ofAirplane i)).loads = some L' ∧
        (L'.forceWind - L.forceWind).norm < ε ∧ (L'.momentWind - L.momentWind).norm < ε := by
      intro hf
      obtain ⟨T, T', Q, Q', -, -, -, -, -, -, hl⟩ := h.loads hr hz hrun hrun' hcut hi hk hf
      have : ∀ᶠ n in F, ∀ r ∈ panelRefs ((P i).airplanesAt k), ((Q' n r).1 - (Q r).forceWind).norm < ε ∧
          ((Q' n r).2 - (Q r).momentWind).norm < ε := by
        apply eventually_list
        intro r hrm
        obtain ⟨-, -, l3, l4⟩ := hl r hrm
        filter_upwards [l3.close hε, l4.close hε] with n f1 f2
        exact ⟨f1, f2⟩
      filter_upwards [this] with n hn hfn r hrm
      obtain ⟨l1, l2, -, -⟩ := hl r hrm
      obtain ⟨L', e1, e2, e3⟩ := l2 n hfn
      exact ⟨Q r, L', l1, e1, by rw [e2]; exact (hn r hrm).1, by rw [e3]; exact (hn r hrm).2⟩
    have h4 : (P i).firstResultsStep ≤ (k : ℤ) → ∀ᶠ n in F, (q n).firstResultsStep ≤ (k : ℤ) →
        ∃ L L' : AirplaneLoads, ((s₁ i).loads k)[0]? = some L ∧ ((z₁ n).loads k)[i]? = some L' ∧
        (L'.forceWind - L.forceWind).norm < ε ∧ (L'.momentWind - L.momentWind).norm < ε ∧
        (L'.forceCoefficients - L.forceCoefficients).norm < ε ∧
        (L'.momentCoefficients - L.momentCoefficients).norm < ε := by
      intro hf
      obtain ⟨T, T', Q, Q', t1, t2, t3, t4, t5, t6, -⟩ := h.loads hr hz hrun hrun' hcut hi hk hf
      filter_upwards [t3.close hε, t4.close hε, t5.close hε, t6.close hε] with n f1 f2 f3 f4 hfn
      exact ⟨T, T' n, t1, t2 n hfn, f1, f2, f3, f4⟩
    by_cases hf : (P i).firstResultsStep ≤ (k : ℤ)
    · filter_upwards [h1, h2, h3 hf, h4 hf] with n a1 a2 a3 a4
      exact ⟨fun r pan hp => a1 r ((mem_panelRefs _ _).mpr ⟨pan, hp⟩), a2,
        fun _ hfn r pan hp => a3 hfn r ((mem_panelRefs _ _).mpr ⟨pan, hp⟩), fun _ hfn => a4 hfn⟩
    · filter_upwards [h1, h2] with n a1 a2
      exact ⟨fun r pan hp => a1 r ((mem_panelRefs _ _).mpr ⟨pan, hp⟩), a2, fun hf' => absurd hf' hf,
        fun hf' => absurd hf' hf⟩
  filter_upwards [hfin] with n hn i hi k hk
  exact hn i (Finset.mem_range.mpr hi) k (Finset.mem_range.mpr hk)

end FarApproach

end Ptera
