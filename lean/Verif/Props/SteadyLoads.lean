import Verif.Lemmas.SteadyRuns
import Verif.Lemmas.MadePanels
import Verif.Props.Loads
import Verif.Lemmas.PlateSolve

/-!
# C37 for the runs of the steady solvers
-/

namespace Ptera

theorem processed_totals (op : OperatingPoint) (as : List Airplane) (F M : List V3) (heap : PanelHeap) (k : ℕ)
    (a : Airplane) (ha : as[k]? = some a) :
    let res := processForces op as (panelRefs as) F M heap
    let R := op.rotationWindToGeometry.transpose
    let q := 0.5 * op.density * op.velocity ^ 2
    let own := (panelRefs as).filter fun r => r.airplane = k
    ∃ (L : AirplaneLoads) (P : PanelRef → PanelLoads), res.2[k]? = some L ∧
      (∀ r ∈ own, (res.1 r).loads = some (P r) ∧ (P r).forceWind = R.mulVec (P r).forceGeometry ∧
        (P r).momentWind = R.mulVec (P r).momentGeometry) ∧
      L.forceWind = (own.map fun r => (P r).forceWind).sum ∧
      L.momentWind = (own.map fun r => (P r).momentWind).sum ∧
      L.forceCoefficients = ⟨-L.forceWind.x / (q * a.sRef), L.forceWind.y / (q * a.sRef),
        -L.forceWind.z / (q * a.sRef)⟩ ∧
      L.momentCoefficients = ⟨L.momentWind.x / (q * a.sRef * a.bRef), L.momentWind.y / (q * a.sRef * a.cRef),
        L.momentWind.z / (q * a.sRef * a.bRef)⟩ := by
  intro res R q own
  have hown : own = airplaneRefs a k := panelRefs_filter _ k a ha
  have hspec := (storePanelLoads_spec op as (panelRefs as) F M heap (panelRefs_nodup _)).1
  have hP : ∀ r, ∃ P : PanelLoads, r ∈ own → (res.1 r).loads = some P ∧
      P.forceWind = R.mulVec P.forceGeometry ∧ P.momentWind = R.mulVec P.momentGeometry := by
    intro r
    by_cases hr : r ∈ own
    · obtain ⟨g, hg⟩ := List.getElem?_of_mem (List.mem_filter.mp hr).1
      refine ⟨panelLoads op (geometryOf as r) (F.getD g 0) (M.getD g 0), fun _ => ⟨?_, rfl, rfl⟩⟩
      simp only [res, processForces]
      rw [hspec g r hg]
    · exact ⟨panelLoads op (geometryOf as r) 0 0, fun h => absurd h hr⟩
  choose P hP using hP
  refine ⟨airplaneLoads op res.1 a k, P, ?_, hP, ?_, ?_, ?_, ?_⟩
  · simp [res, processForces, ha]
  · simp only [airplaneLoads]
    rw [foldl_add_sum, M3.mulVec_sum, List.map_map, hown]
    congr 1
    apply List.map_congr_left
    intro r hr
    obtain ⟨e1, e2, e3⟩ := hP r (by rw [hown]; exact hr)
    simp only [Function.comp, PanelState.force, e1, e2, Option.map_some, Option.getD_some]
    rfl
  · simp only [airplaneLoads]
    rw [foldl_add_sum, M3.mulVec_sum, List.map_map, hown]
    congr 1
    apply List.map_congr_left
    intro r hr
    obtain ⟨e1, e2, e3⟩ := hP r (by rw [hown]; exact hr)
    simp only [Function.comp, PanelState.moment, e1, e3, Option.map_some, Option.getD_some]
    rfl
  · simp only [airplaneLoads, div_div]; rfl
  · simp only [airplaneLoads, div_div]; rfl

/-- C37 (horseshoe solver): after a run, each airplane's total force and moment in wind axes are the sums of the
wind-axes forces and moments stored on its own panels, which are the rotated geometry-axes ones; the coefficients
are the totals over `q s_ref`, and `b_ref`, `c_ref`, `b_ref` for the moments. -/
theorem C37_horseshoe (problem : SteadyProblem) (hmade : ∀ a ∈ problem.airplanes, a.Made) (heap : PanelHeap)
    (loads : List AirplaneLoads) (s : HorseshoeSolver)
    (h : (HorseshoeSolver.create problem heap loads).run = .ok s) (k : ℕ) (a : Airplane)
    (ha : problem.airplanes[k]? = some a) :
    let op := problem.operatingPoint
    let R := op.rotationWindToGeometry.transpose
    let q := 0.5 * op.density * op.velocity ^ 2
    let own := (panelRefs problem.airplanes).filter fun r => r.airplane = k
    s.loads.length = problem.airplanes.length ∧
    ∃ (L : AirplaneLoads) (P : PanelRef → PanelLoads), s.loads[k]? = some L ∧
      (∀ r ∈ own, (s.heap r).loads = some (P r) ∧ (P r).forceWind = R.mulVec (P r).forceGeometry ∧
        (P r).momentWind = R.mulVec (P r).momentGeometry) ∧
      L.forceWind = (own.map fun r => (P r).forceWind).sum ∧
      L.momentWind = (own.map fun r => (P r).momentWind).sum ∧
      L.forceCoefficients = ⟨-L.forceWind.x / (q * a.sRef), L.forceWind.y / (q * a.sRef),
        -L.forceWind.z / (q * a.sRef)⟩ ∧
      L.momentCoefficients = ⟨L.momentWind.x / (q * a.sRef * a.bRef), L.momentWind.y / (q * a.sRef * a.cRef),
        L.momentWind.z / (q * a.sRef * a.bRef)⟩ := by
  have hc := counted_of_made hmade
  set S := HorseshoeSolver.create problem heap loads with hS
  obtain ⟨x, hx, hlen, rfl⟩ := HorseshoeSolver.run_result (s := S) hc (by simp [S, HorseshoeSolver.create]) h
  have hpan : (S.solved x).slots.map (·.panel) = panelRefs problem.airplanes := S.finalSlots_panels
  have hres : ((S.solved x).calculateForces.calculateStreamlines.heap,
      (S.solved x).calculateForces.calculateStreamlines.loads)
      = processForces problem.operatingPoint problem.airplanes (panelRefs problem.airplanes)
        (S.solved x).nearFieldForces (S.solved x).nearFieldMoments (S.solved x).heap := by
    rw [← hpan]; rfl
  have h1 := congrArg Prod.fst hres
  have h2 := congrArg Prod.snd hres
  simp only at h1 h2
  have := processed_totals problem.operatingPoint problem.airplanes (S.solved x).nearFieldForces
    (S.solved x).nearFieldMoments (S.solved x).heap k a ha
  simp only at this ⊢
  rw [h1, h2]
  exact ⟨by simp [processForces], this⟩

/-- C37 (ring solver): as for the horseshoe solver. -/
theorem C37_ring (problem : SteadyProblem) (hmade : ∀ a ∈ problem.airplanes, a.Made) (heap : PanelHeap)
    (loads : List AirplaneLoads) (s : RingSolver)
    (h : (RingSolver.create problem heap loads).run = .ok s) (k : ℕ) (a : Airplane)
    (ha : problem.airplanes[k]? = some a) :
    let op := problem.operatingPoint
    let R := op.rotationWindToGeometry.transpose
    let q := 0.5 * op.density * op.velocity ^ 2
    let own := (panelRefs problem.airplanes).filter fun r => r.airplane = k
    s.loads.length = problem.airplanes.length ∧
    ∃ (L : AirplaneLoads) (P : PanelRef → PanelLoads), s.loads[k]? = some L ∧
      (∀ r ∈ own, (s.heap r).loads = some (P r) ∧ (P r).forceWind = R.mulVec (P r).forceGeometry ∧
        (P r).momentWind = R.mulVec (P r).momentGeometry) ∧
      L.forceWind = (own.map fun r => (P r).forceWind).sum ∧
      L.momentWind = (own.map fun r => (P r).momentWind).sum ∧
      L.forceCoefficients = ⟨-L.forceWind.x / (q * a.sRef), L.forceWind.y / (q * a.sRef),
        -L.forceWind.z / (q * a.sRef)⟩ ∧
      L.momentCoefficients = ⟨L.momentWind.x / (q * a.sRef * a.bRef), L.momentWind.y / (q * a.sRef * a.cRef),
        L.momentWind.z / (q * a.sRef * a.bRef)⟩ := by
  have hc := counted_of_made hmade
  set S := RingSolver.create problem heap loads with hS
  obtain ⟨x, hx, hlen, rfl⟩ := RingSolver.run_result (s := S) hc (by simp [S, RingSolver.create])
    (by simp [S, RingSolver.create]) (by simp [S, RingSolver.create]) h
  have hpan : (S.solved x).slots.map (·.panel) = panelRefs problem.airplanes := S.finalSlots_panels
  have hres : ((S.solved x).calculateForces.calculateStreamlines.heap,
      (S.solved x).calculateForces.calculateStreamlines.loads)
      = processForces problem.operatingPoint problem.airplanes (panelRefs problem.airplanes)
        (S.solved x).nearFieldForces (S.solved x).nearFieldMoments (S.solved x).heap := by
    rw [← hpan]; rfl
  have h1 := congrArg Prod.fst hres
  have h2 := congrArg Prod.snd hres
  simp only at h1 h2
  have := processed_totals problem.operatingPoint problem.airplanes (S.solved x).nearFieldForces
    (S.solved x).nearFieldMoments (S.solved x).heap k a ha
  simp only at this ⊢
  rw [h1, h2]
  exact ⟨by simp [processForces], this⟩

/-- The hypotheses are met: both solvers solve the plate at 90 degrees. -/
example : ∃ (a : Airplane) (op : OperatingPoint), (∀ b ∈ [a], b.Made) ∧
    (∃ s, (HorseshoeSolver.create ⟨[a], op⟩).run = .ok s) ∧ ∃ s, (RingSolver.create ⟨[a], op⟩).run = .ok s := by
  obtain ⟨a, hmade, hrefs, hp, hspan, -⟩ := plate_airplane
  let op : OperatingPoint := { alpha := 90, beta := 0 }
  have hd : |op.freestreamDirection.y| ≤ op.freestreamDirection.x := by
    rw [C01_freestream_direction, show op.alpha * Real.pi / 180 = Real.pi / 2 by simp only [op]; ring]
    simp [op]
  obtain ⟨s, hs, _⟩ := plate_horseshoe_run op hmade hrefs hp hspan hd PanelHeap.fresh []
  obtain ⟨s', hs', _⟩ := plate_ring_run op hmade hrefs hp hspan hd PanelHeap.fresh []
  exact ⟨a, op, by simpa using hmade, ⟨s, hs⟩, s', hs'⟩

end Ptera
