import Verif.Props.UnsteadyFlow
import Verif.Props.RingLattice

/-!
# C35 to C38 for the unsteady solver: panel forces, multiplicities, totals, alignment
-/

namespace Ptera

open UnsteadySolver

variable {p : UnsteadyProblem} {s s' : UnsteadySolver} {pres sl : Bool}

theorem UnsteadySolver.Trace.processed (hp : p.Regular) {st sm : ℕ → UnsteadySolver} (h : Trace p pres s s' st sm)
    {k : ℕ} (hk : k < p.numSteps) (hfirst : p.firstResultsStep ≤ (k : ℤ)) :
    ∃ (F M : List V3) (heap : PanelHeap),
      (s'.panels k, s'.loads k)
        = processForces (p.operatingPointAt k) (p.airplanesAt k) (panelRefs (p.airplanesAt k)) F M heap := by
  obtain ⟨T, hsm, hTs, hTp, hpan, hT⟩ := h.forces hp hk hfirst
  have hTa : T.airplanes = p.airplanesAt k := by unfold airplanes; rw [hTp, hTs]
  have hTo : T.operatingPoint = p.operatingPointAt k := by unfold operatingPoint; rw [hTp, hTs]
  refine ⟨T.nearFieldForces, T.nearFieldMoments, T.panels k, ?_⟩
  rw [h.panels hk, h.loads hk, hsm]
  unfold calculateForces
  simp only [hTs, hpan, hTa, hTo, Function.update_self]

/-! ## C35 -/

/-- C35 (unsteady solver): at every step from the first results step on, the force on every panel is the sum of the
Kutta–Joukowski forces on the front, left and right sides of its ring (net strengths of those sides, velocity of the
flow relative to the moving middle of the side) and of the unsteady force
`density * (strength - previous strength) * area / delta_time` along the panel's normal; the moment is the sum of the
moments of these four forces, at the middles of the sides and the collocation point, about the airplane's reference
point. -/
theorem C35_unsteady (hp : p.Made) (hs : Reached p s) (h : s.run pres sl = .ok s') (k : ℕ) (hk : k < p.numSteps)
    (hfirst : p.firstResultsStep ≤ (k : ℤ)) (r : PanelRef) (panel : Panel) (a : Airplane)
    (hpanel : panelAt (p.airplanesAt k) r = some panel) (ha : (p.airplanesAt k)[r.airplane]? = some a) :
    let density := (p.operatingPointAt k).density
    let as := p.airplanesAt k
    ∃ (L : PanelLoads) (v : RingVortex) (F Lf R U : V3),
      (s'.panels k r).loads = some L ∧ (s'.panels k r).ring = some v ∧
      F = kuttaJoukowski density (netFront as (s'.panels k) r) (relativeFlow s' k r RingVortex.frontMiddle)
        (v.frontLeft - v.frontRight) ∧
      Lf = kuttaJoukowski density (netLeft as (s'.panels k) r) (relativeFlow s' k r RingVortex.leftMiddle)
        (v.backLeft - v.frontLeft) ∧
      R = kuttaJoukowski density (netRight as (s'.panels k) r) (relativeFlow s' k r RingVortex.rightMiddle)
        (v.frontRight - v.backRight) ∧
      U = (density * (v.strength - previousStrength s' k r) * panel.area / p.deltaTime) • panel.unitNormal ∧
      L.forceGeometry = F + Lf + R + U ∧
      L.momentGeometry = (v.frontMiddle - a.xyzRef).cross F + (v.leftMiddle - a.xyzRef).cross Lf
        + (v.rightMiddle - a.xyzRef).cross R + (panel.collocationPoint - a.xyzRef).cross U := by
  intro density as
  obtain ⟨st, sm, ht⟩ := hs.trace hp h
  obtain ⟨T, hsm, hTs, hTp, hpan, hT⟩ := ht.forces hp.regular hk hfirst
  obtain ⟨g, hg⟩ := List.getElem?_of_mem ((mem_panelRefs (p.airplanesAt k) r).mpr ⟨panel, hpanel⟩)
  obtain ⟨hF, hM⟩ := hT g r hg
  obtain ⟨e, he⟩ := ht.rings hk ((mem_panelRefs (p.airplanesAt k) r).mpr ⟨panel, hpanel⟩)
  have hstr : strengthAt (p.airplanesAt k) (s'.panels k) r = ((boundRing p k r).updateStrength e).strength := by
    rw [strengthAt_some hpanel, he]
    rfl
  simp only [hstr, ha, Option.map_some, Option.getD_some, geometryOf_eq hpanel] at hF hM
  have hTa : T.airplanes = p.airplanesAt k := by unfold airplanes; rw [hTp, hTs]
  have hload : (s'.panels k r).loads
      = some (panelLoads T.operatingPoint (geometryOf T.airplanes r) (T.nearFieldForces.getD g 0)
          (T.nearFieldMoments.getD g 0)) := by
    rw [ht.panels hk, hsm]
    unfold calculateForces processForces
    simp only [hTs, Function.update_self]
    rw [(storePanelLoads_spec T.operatingPoint T.airplanes (T.slots.map (·.panel)) T.nearFieldForces
      T.nearFieldMoments (T.panels k) (by rw [hpan]; exact panelRefs_nodup _)).1 g r (by rw [hpan]; exact hg)]
  rw [getD_some hF, getD_some hM] at hload
  exact ⟨_, _, _, _, _, _, hload, he, rfl, rfl, rfl, rfl, rfl, rfl⟩

/-! ## C36 -/

/-- C36 (unsteady solver, exact multiplicities): on a wing whose neighbouring panels share their sides at this step
and the one before, the forces of the `n + 1` panels of a row add up to the forces on the front filaments and the
unsteady forces, plus once the forces on the two outer chordwise filaments, plus *twice* the forces on the inner
chordwise filaments. `side j` is the force on the chordwise filament to the left of column `j`. -/
theorem C36_unsteady_multiplicities (hp : p.Made) (hs : Reached p s) (h : s.run pres sl = .ok s') (k : ℕ)
    (hk : k < p.numSteps) (hfirst : p.firstResultsStep ≤ (k : ℤ))
    (a w i : ℕ) (W : Wing) (hW : wingAt (p.airplanesAt k) ⟨a, w, i, 0⟩ = some W) (hi : i < W.panels.length)
    (n : ℕ) (hn : W.numSpanwisePanels = n + 1) (hshare : SidesShared (p.airplanesAt k) a w)
    (hshare' : ∀ j, k = j + 1 → SidesShared (p.airplanesAt j) a w) :
    let density := (p.operatingPointAt k).density
    let as := p.airplanesAt k
    ∃ (force front unsteady side : ℕ → V3) (ring : ℕ → RingVortex),
      (∀ j ≤ n, ∃ (L : PanelLoads) (panel : Panel), (s'.panels k ⟨a, w, i, j⟩).loads = some L ∧
        panelAt as ⟨a, w, i, j⟩ = some panel ∧
        (s'.panels k ⟨a, w, i, j⟩).ring = some (ring j) ∧ L.forceGeometry = force j ∧
        front j = kuttaJoukowski density (netFront as (s'.panels k) ⟨a, w, i, j⟩)
          (relativeFlow s' k ⟨a, w, i, j⟩ RingVortex.frontMiddle) ((ring j).frontLeft - (ring j).frontRight) ∧
        unsteady j = (density * ((ring j).strength - previousStrength s' k ⟨a, w, i, j⟩) * panel.area / p.deltaTime)
          • panel.unitNormal ∧
        side j = kuttaJoukowski density (netLeft as (s'.panels k) ⟨a, w, i, j⟩)
          (relativeFlow s' k ⟨a, w, i, j⟩ RingVortex.leftMiddle) ((ring j).backLeft - (ring j).frontLeft)) ∧
      side (n + 1) = kuttaJoukowski density (netRight as (s'.panels k) ⟨a, w, i, n⟩)
          (relativeFlow s' k ⟨a, w, i, n⟩ RingVortex.rightMiddle) ((ring n).frontRight - (ring n).backRight) ∧
      ((List.range (n + 1)).map force).sum = ((List.range (n + 1)).map fun j => front j + unsteady j).sum
        + (side 0 + side (n + 1)) + (2 : ℝ) • ((List.range n).map fun j => side (j + 1)).sum := by
  intro density as
  have hmade := hp.regular.made k
  obtain ⟨A, hA, hAw⟩ := Option.bind_eq_some_iff.mp hW
  have hWm : W.Made := (hmade A (List.mem_of_getElem? hA)).wings W (List.mem_of_getElem? hAw)
  have hex : ∀ j, j ≤ n → ∃ q, panelAt as ⟨a, w, i, j⟩ = some q := by
    intro j hj
    rw [cell_panelAt (r := ⟨a, w, i, j⟩) hA hAw]
    exact (made_cells hWm _ _).mpr ⟨hi, by rw [hn]; show j < n + 1; omega⟩
  have hall : ∀ j, ∃ x : V3 × V3 × V3 × V3 × V3 × RingVortex, j ≤ n →
      ∃ (L : PanelLoads) (panel : Panel), (s'.panels k ⟨a, w, i, j⟩).loads = some L ∧
        panelAt as ⟨a, w, i, j⟩ = some panel ∧
        (s'.panels k ⟨a, w, i, j⟩).ring = some x.2.2.2.2.2 ∧ L.forceGeometry = x.1 ∧
        x.2.1 = kuttaJoukowski density (netFront as (s'.panels k) ⟨a, w, i, j⟩)
          (relativeFlow s' k ⟨a, w, i, j⟩ RingVortex.frontMiddle)
          (x.2.2.2.2.2.frontLeft - x.2.2.2.2.2.frontRight) ∧
        x.2.2.1 = (density * (x.2.2.2.2.2.strength - previousStrength s' k ⟨a, w, i, j⟩) * panel.area / p.deltaTime)
          • panel.unitNormal ∧
        x.2.2.2.1 = kuttaJoukowski density (netLeft as (s'.panels k) ⟨a, w, i, j⟩)
          (relativeFlow s' k ⟨a, w, i, j⟩ RingVortex.leftMiddle) (x.2.2.2.2.2.backLeft - x.2.2.2.2.2.frontLeft) ∧
        x.2.2.2.2.1 = kuttaJoukowski density (netRight as (s'.panels k) ⟨a, w, i, j⟩)
          (relativeFlow s' k ⟨a, w, i, j⟩ RingVortex.rightMiddle)
          (x.2.2.2.2.2.frontRight - x.2.2.2.2.2.backRight) ∧
        x.1 = (x.2.1 + x.2.2.1) + x.2.2.2.1 + x.2.2.2.2.1 := by
    intro j
    by_cases hj : j ≤ n
    · obtain ⟨q, hq⟩ := hex j hj
      obtain ⟨L, v, F, Lf, R, U, h1, h2, h3, h4, h5, h6, h7, _⟩ :=
        C35_unsteady hp hs h k hk hfirst ⟨a, w, i, j⟩ q A hq hA
      refine ⟨(L.forceGeometry, F, U, Lf, R, v), fun _ => ⟨L, q, h1, hq, h2, rfl, h3, h6, h4, h5, ?_⟩⟩
      simp only
      rw [h7]; abel
    · exact ⟨(0, 0, 0, 0, 0, RingVortex.mk' 0 0 0 0 0), fun hj' => absurd hj' hj⟩
  choose x hx using hall
  have hright : ∀ j, j + 1 < n + 1 → (x j).2.2.2.2.1 = (x (j + 1)).2.2.2.1 := by
    intro j hj
    obtain ⟨L, q, e1, e2, e3, e4, e5, e6, e7, e8, e9⟩ := hx j (by omega)
    obtain ⟨L', q', e1', e2', e3', e4', e5', e6', e7', e8', e9'⟩ := hx (j + 1) (by omega)
    -- the common side, at this step and the one before
    have hside : ∀ m < p.numSteps, SidesShared (p.airplanesAt m) a w →
        (∃ v v' : RingVortex, (s'.panels m ⟨a, w, i, j⟩).ring = some v ∧
          (s'.panels m ⟨a, w, i, j + 1⟩).ring = some v' ∧ v.frontRight = v'.frontLeft ∧ v.backRight = v'.backLeft) := by
      intro m hm hsm
      have hr := panelRefs_same hp.regular hm hk
      obtain ⟨c, hc⟩ : ∃ c, panelAt (p.airplanesAt m) ⟨a, w, i, j⟩ = some c := by
        rw [← mem_panelRefs, hr, mem_panelRefs]; exact ⟨q, e2⟩
      obtain ⟨c', hc'⟩ : ∃ c, panelAt (p.airplanesAt m) ⟨a, w, i, j + 1⟩ = some c := by
        rw [← mem_panelRefs, hr, mem_panelRefs]; exact ⟨q', e2'⟩
      obtain ⟨v, hv, _, _, _, _, hs'⟩ := C39_unsteady hp hs h m hm ⟨a, w, i, j⟩ c hc
      obtain ⟨v', hv', g1, g2⟩ := hs' c' hc' hsm
      exact ⟨v, v', hv, hv', g1, g2⟩
    have hpt : ∀ m < p.numSteps, SidesShared (p.airplanesAt m) a w →
        ringPoint s' m ⟨a, w, i, j⟩ RingVortex.rightMiddle = ringPoint s' m ⟨a, w, i, j + 1⟩ RingVortex.leftMiddle := by
      intro m hm hsm
      obtain ⟨v, v', hv, hv', g1, g2⟩ := hside m hm hsm
      unfold ringPoint
      rw [hv, hv']
      simp only [Option.map_some, Option.getD_some, RingVortex.rightMiddle, RingVortex.leftMiddle, g1, g2]
      rw [add_comm]
    have hrel : relativeFlow s' k ⟨a, w, i, j⟩ RingVortex.rightMiddle
        = relativeFlow s' k ⟨a, w, i, j + 1⟩ RingVortex.leftMiddle := by
      unfold relativeFlow
      rw [hpt k hk hshare]
      congr 1
      cases k with
      | zero => rfl
      | succ m =>
        unfold pointVelocity
        simp only
        rw [hpt (m + 1) hk hshare, hpt m (by omega) (hshare' m rfl)]
    obtain ⟨v, v', hv, hv', g1, g2⟩ := hside k hk hshare
    rw [e3] at hv
    rw [e3'] at hv'
    have hv1 := Option.some.inj hv
    have hv2 := Option.some.inj hv'
    rw [e8, e7', hrel, hv1, hv2, g1, g2]
    have hnet : netRight as (s'.panels k) ⟨a, w, i, j⟩ = -netLeft as (s'.panels k) ⟨a, w, i, j + 1⟩ := by
      unfold netRight netLeft
      simp
    rw [hnet]
    unfold kuttaJoukowski
    rw [← neg_sub v'.backLeft v'.frontLeft, V3.cross_neg]
    ext <;> simp
  refine ⟨fun j => (x j).1, fun j => (x j).2.1, fun j => (x j).2.2.1,
    fun j => if j ≤ n then (x j).2.2.2.1 else (x n).2.2.2.2.1, fun j => (x j).2.2.2.2.2, ?_, ?_, ?_⟩
  · intro j hj
    obtain ⟨L, q, e1, e2, e3, e4, e5, e6, e7, e8, e9⟩ := hx j hj
    exact ⟨L, q, e1, e2, e3, e4, e5, e6, by simp only; rw [if_pos hj]; exact e7⟩
  · simp only
    rw [if_neg (by omega)]
    obtain ⟨L, q, e1, e2, e3, e4, e5, e6, e7, e8, e9⟩ := hx n le_rfl
    exact e8
  · have e : (List.range (n + 1)).map (fun j => (x j).1)
        = (List.range (n + 1)).map fun j => ((x j).2.1 + (x j).2.2.1) + (x j).2.2.2.1 + (x j).2.2.2.2.1 := by
      apply List.map_congr_left
      intro j hj
      obtain ⟨L, q, e1, e2, e3, e4, e5, e6, e7, e8, e9⟩ := hx j (by simp at hj; omega)
      exact e9
    rw [e, twice_inner n _ _ _ hright]
    simp only
    rw [if_pos (by omega), if_neg (by omega)]
    congr 3
    apply List.map_congr_left
    intro j hj
    rw [if_pos (by simp at hj; omega)]

/-! ## C37 -/

/-- C37 (unsteady solver): at every step from the first results step on, each airplane's total force and moment in
wind axes are the sums of the wind-axes forces and moments stored on its own panels, which are the rotated
geometry-axes ones; the coefficients are the totals over `q s_ref`, and `b_ref`, `c_ref`, `b_ref` for the moments. -/
theorem C37_unsteady (hp : p.Made) (hs : Reached p s) (h : s.run pres sl = .ok s') (k : ℕ) (hk : k < p.numSteps)
    (hfirst : p.firstResultsStep ≤ (k : ℤ)) (i : ℕ) (a : Airplane) (ha : (p.airplanesAt k)[i]? = some a) :
    let op := p.operatingPointAt k
    let R := op.rotationWindToGeometry.transpose
    let q := 0.5 * op.density * op.velocity ^ 2
    let own := (panelRefs (p.airplanesAt k)).filter fun r => r.airplane = i
    ∃ (L : AirplaneLoads) (P : PanelRef → PanelLoads), (s'.loads k)[i]? = some L ∧
      (∀ r ∈ own, (s'.panels k r).loads = some (P r) ∧ (P r).forceWind = R.mulVec (P r).forceGeometry ∧
        (P r).momentWind = R.mulVec (P r).momentGeometry) ∧
      L.forceWind = (own.map fun r => (P r).forceWind).sum ∧
      L.momentWind = (own.map fun r => (P r).momentWind).sum ∧
      L.forceCoefficients = ⟨-L.forceWind.x / (q * a.sRef), L.forceWind.y / (q * a.sRef),
        -L.forceWind.z / (q * a.sRef)⟩ ∧
      L.momentCoefficients = ⟨L.momentWind.x / (q * a.sRef * a.bRef), L.momentWind.y / (q * a.sRef * a.cRef),
        L.momentWind.z / (q * a.sRef * a.bRef)⟩ := by
  intro op R q own
  obtain ⟨st, sm, ht⟩ := hs.trace hp h
  obtain ⟨F, M, heap, hpr⟩ := ht.processed hp.regular hk hfirst
  have hown : own = airplaneRefs a i := panelRefs_filter _ i a ha
  have h1 : s'.panels k = (processForces op (p.airplanesAt k) (panelRefs (p.airplanesAt k)) F M heap).1 :=
    (congrArg Prod.fst hpr)
  have h2 : s'.loads k = (processForces op (p.airplanesAt k) (panelRefs (p.airplanesAt k)) F M heap).2 :=
    (congrArg Prod.snd hpr)
  have hspec := (storePanelLoads_spec op (p.airplanesAt k) (panelRefs (p.airplanesAt k)) F M heap
    (panelRefs_nodup _)).1
  have hP : ∀ r, ∃ P : PanelLoads, r ∈ own → (s'.panels k r).loads = some P ∧
      P.forceWind = R.mulVec P.forceGeometry ∧ P.momentWind = R.mulVec P.momentGeometry := by
    intro r
    by_cases hr : r ∈ own
    · obtain ⟨g, hg⟩ := List.getElem?_of_mem (List.mem_filter.mp hr).1
      refine ⟨panelLoads op (geometryOf (p.airplanesAt k) r) (F.getD g 0) (M.getD g 0), fun _ => ⟨?_, rfl, rfl⟩⟩
      rw [h1]
      simp only [processForces]
      rw [hspec g r hg]
    · exact ⟨panelLoads op (geometryOf (p.airplanesAt k) r) 0 0, fun h => absurd h hr⟩
  choose P hP using hP
  refine ⟨airplaneLoads op (s'.panels k) a i, P, ?_, hP, ?_, ?_, ?_, ?_⟩
  · rw [h2, h1]
    simp [processForces, ha]
  · simp only [airplaneLoads]
    rw [foldl_add_sum, M3.mulVec_sum, List.map_map, hown]
    congr 1
    apply List.map_congr_left
    intro r hr
    obtain ⟨e1, e2, e3⟩ := hP r (by rw [hown]; exact hr)
    simp only [Function.comp, PanelState.force, e1, e2, Option.map_some, Option.getD_some]
    rfl
  · simp only [airplaneLoads]
    rw [foldl_add_sum, M3.mulVec_sum, List.map_map, hown]
    congr 1
    apply List.map_congr_left
    intro r hr
    obtain ⟨e1, e2, e3⟩ := hP r (by rw [hown]; exact hr)
    simp only [Function.comp, PanelState.moment, e1, e3, Option.map_some, Option.getD_some]
    rfl
  · simp only [airplaneLoads, div_div]; rfl
  · simp only [airplaneLoads, div_div]; rfl

/-- C37 (unsteady solver): one entry per airplane from the first results step on; a new solver computes no loads at
earlier steps. -/
theorem C37_unsteady_steps (hp : p.Made) (hs : Reached p s) (h : s.run pres sl = .ok s') (k : ℕ)
    (hk : k < p.numSteps) :
    (p.firstResultsStep ≤ (k : ℤ) → (s'.loads k).length = (p.airplanesAt k).length) ∧
    ((k : ℤ) < p.firstResultsStep → s'.loads k = s.loads k ∧ ∀ r, (s'.panels k r).loads = (s.panels k r).loads) := by
  obtain ⟨st, sm, ht⟩ := hs.trace hp h
  constructor
  · intro hfirst
    obtain ⟨F, M, heap, hpr⟩ := ht.processed hp.regular hk hfirst
    have h2 : s'.loads k = _ := (congrArg Prod.snd hpr)
    rw [h2]
    simp [processForces]
  · intro hfirst
    have hinv := ht.inv k (by omega)
    obtain ⟨addr, hw⟩ := hinv.wake hk
    obtain ⟨x, hx, hs1, hf⟩ := hinv.solve hp.regular hk hw (ht.solve k hk)
    unfold stepped at hs1
    rw [if_neg (by rw [hinv.problem]; omega)] at hs1
    have hl : (st k).loads k = s.loads k := by
      rw [persist (st := st) (fun t => t.loads k) 0 k (by omega)]
      · rw [ht.start]; rfl
      · intro j _ hj
        obtain ⟨x, hx⟩ := ht.solved j (by omega)
        rw [congrFun (ht.shed j (by omega)).same.2.1 k, hx.loads k (by omega)]
    have hpn : (st k).panels k = (st 0).panels k := by
      rw [persist (st := st) (fun t => t.panels k) 0 k (by omega)]
      intro j _ hj
      exact ht.step_panels (by omega) (by omega)
    refine ⟨?_, ?_⟩
    · rw [ht.loads hk, hs1, ← hl]; rfl
    · intro r
      rw [ht.panels hk, hs1]
      have e1 : (((st k).solved k ((st k).ringAt k) ((st k).ringAt (k - 1)) (wakeAddresses p k addr) x).panels k r).loads
          = ((st k).panels k r).loads := by
        unfold solved
        simp only [Function.update_self]
        have : ∀ (l : List (RingSlot × ℕ)) (heap : PanelHeap),
            (l.foldl (storeStrength x) heap r).loads = (heap r).loads := by
          intro l
          induction l with
          | nil => intro heap; rfl
          | cons c l ih =>
            intro heap
            rw [List.foldl_cons, ih]
            unfold storeStrength
            by_cases hc : r = c.1.panel
            · subst hc; simp
            · rw [Function.update_of_ne hc]
        exact this _ _
      rw [e1, hpn, ht.start]
      change (initializeStep _ _ _ (s.panels k) r).loads = _
      by_cases hr : r ∈ panelRefs (s.preallocate.problem.airplanesAt k)
      · rw [(initializeStep_spec _ _ _ _).1 r hr]
      · rw [(initializeStep_spec _ _ _ _).2 r hr]

/-! ## C38 -/

/-- C38 (unsteady solver): after `k + 1` steps of a run (state `t`), the flattened arrays of the current step list
every panel exactly once by airplane, wing, row and column; the entry at a panel's position belongs to it; the
strength found for that position is the one on the panel's ring; and the arrays of the previous step are aligned
with them. -/
theorem C38_unsteady (hp : p.Made) (hs : Reached p s) (h : s.run pres sl = .ok s') (k : ℕ) (hk : k < p.numSteps)
    (t : UnsteadySolver)
    (ht : (List.range (k + 1)).foldlM (runStep pres) s.preallocate.initializePanelVortices = .ok t) :
    Enumerates (p.airplanesAt k) (t.slots.map (·.panel)) ∧ t.strengths.length = t.slots.length ∧
    t.lasts.length = t.slots.length ∧
    (∀ (g : ℕ) (slot : RingSlot), t.slots[g]? = some slot → ∃ (panel : Panel) (v : RingVortex), panelAt (p.airplanesAt k) slot.panel = some panel ∧
      (s'.panels k slot.panel).ring = some v ∧ t.strengths[g]? = some v.strength ∧
      slot.normal = panel.unitNormal ∧ slot.area = panel.area ∧ slot.collocation = panel.collocationPoint ∧
      slot.frontLeft = v.frontLeft ∧ slot.frontRight = v.frontRight ∧ slot.backLeft = v.backLeft ∧
      slot.backRight = v.backRight ∧
      ∀ j, k = j + 1 → ∃ (last : LastSlot) (before : Panel) (old : RingVortex), t.lasts[g]? = some last ∧
        panelAt (p.airplanesAt j) slot.panel = some before ∧ (s'.panels j slot.panel).ring = some old ∧
        last.collocation = before.collocationPoint ∧ last.strength = old.strength ∧
        last.frontLeft = old.frontLeft ∧ last.frontRight = old.frontRight ∧ last.backLeft = old.backLeft ∧
        last.backRight = old.backRight) := by
  obtain ⟨st, sm, tr⟩ := hs.trace hp h
  have e := tr.reached (k + 1) (by omega)
  rw [begun, ht] at e
  cases e
  obtain ⟨x, hx, hl, _⟩ := tr.system hp.regular hk
  obtain ⟨_, _, _, f4, f5, f6, f7, f8, _⟩ := (tr.shed k hk).same
  have hinv := tr.inv k (by omega)
  have hslots : (st (k + 1)).slots = (st k).slotsAt k ((st k).ringAt k) := by rw [f6, hx.slots]
  have hstr : (st (k + 1)).strengths = x := by rw [f7, hx.strengths]
  have hlasts : (st (k + 1)).lasts = (st k).lastsAt k ((st k).ringAt (k - 1)) := by rw [f8, hx.lasts]
  have hpan : (st (k + 1)).slots.map (·.panel) = panelRefs (p.airplanesAt k) := by
    rw [hslots]; unfold slotsAt
    rw [hinv.problem, List.map_map]
    conv_rhs => rw [← List.map_id (panelRefs (p.airplanesAt k))]
    rfl
  have hslen : (st (k + 1)).slots.length = (panelRefs (p.airplanesAt k)).length := by
    rw [← hpan, List.length_map]
  refine ⟨by rw [hpan]; exact enumerates_refs _, by rw [hstr, hl, hslen], ?_, ?_⟩
  · rw [hlasts, hslen]
    unfold lastsAt
    split_ifs with h0
    · rw [hinv.problem, List.length_map, panelRefs_same hp.regular (by omega : k - 1 < p.numSteps) hk]
    · rw [hinv.problem, List.length_replicate, panelRefs_length _ (hp.regular.counted k)]
  · intro g slot hg
    have hgp : (panelRefs (p.airplanesAt k))[g]? = some slot.panel := by
      rw [← hpan, List.getElem?_map, hg]; rfl
    have hmem := List.mem_of_getElem? hgp
    obtain ⟨panel, hpanel⟩ := (mem_panelRefs _ _).mp hmem
    obtain ⟨c, hc⟩ := hinv.rings k hk _ hmem
    have hslot : slot = ringSlot (p.airplanesAt k) slot.panel ((boundRing p k slot.panel).updateStrength c) := by
      rw [hslots] at hg
      unfold slotsAt at hg
      rw [hinv.problem, List.getElem?_map, hgp] at hg
      have := Option.some.inj hg
      simp only [ringAt, hc, Option.getD_some] at this
      exact this.symm
    have hring : (s'.panels k slot.panel).ring
        = some ((boundRing p k slot.panel).updateStrength (x.getD g 0)) := by
      rw [tr.panels hk, hx.rings g _ hgp]
      simp only [ringAt, hc, Option.getD_some]
      rfl
    have hgeo := geometryOf_eq hpanel
    refine ⟨panel, _, hpanel, hring, ?_, ?_, ?_, ?_, ?_, ?_, ?_, ?_, ?_⟩
    · rw [hstr]
      have : g < x.length := by rw [hl]; exact (List.getElem?_eq_some_iff.mp hgp).1
      rw [List.getElem?_eq_getElem this]
      simp [RingVortex.updateStrength, List.getD_eq_getElem?_getD, this]
    · rw [← hgeo]; exact congrArg RingSlot.normal hslot
    · rw [← hgeo]; exact congrArg RingSlot.area hslot
    · rw [← hgeo]; exact congrArg RingSlot.collocation hslot
    · exact congrArg RingSlot.frontLeft hslot
    · exact congrArg RingSlot.frontRight hslot
    · exact congrArg RingSlot.backLeft hslot
    · exact congrArg RingSlot.backRight hslot
    · intro j hj
      subst hj
      have hjn : j < p.numSteps := by omega
      have hsame := panelRefs_same hp.regular hjn hk
      have hmem' : slot.panel ∈ panelRefs (p.airplanesAt j) := by rw [hsame]; exact hmem
      obtain ⟨before, hb⟩ := (mem_panelRefs _ _).mp hmem'
      obtain ⟨c', hc'⟩ := hinv.rings j hjn _ hmem'
      have hold : (s'.panels j slot.panel).ring = some ((boundRing p j slot.panel).updateStrength c') := by
        rw [← tr.panels_before (by omega : j < j + 1) (by omega), hc']
      refine ⟨lastSlot before ((boundRing p j slot.panel).updateStrength c'), before, _, ?_, hb, hold, ?_⟩
      · rw [hlasts]
        unfold lastsAt
        rw [if_pos (by omega), hinv.problem]
        simp only [Nat.add_sub_cancel]
        rw [hsame, List.getElem?_map, hgp]
        simp only [Option.map_some, ringAt, hc', Option.getD_some, geometryOf_eq hb]
      · exact ⟨rfl, rfl, rfl, rfl, rfl, rfl⟩

end Ptera
