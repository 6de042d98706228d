import Verif.Lemmas.SteadyRuns
import Verif.Lemmas.MadePanels

/-!
# C34, C35, C38 for the steady solvers: what a run leaves on the panels
-/

namespace Ptera

/-! ## C38: the flattened arrays are aligned with the panels -/

/-- C38 (horseshoe solver): after a run the flattened arrays list every panel once, in order; the entries at an
index belong to that index's panel, and the strength at that index is on that panel's vortex. -/
theorem C38_horseshoe (problem : SteadyProblem) (hmade : ∀ a ∈ problem.airplanes, a.Made) (heap : PanelHeap)
    (loads : List AirplaneLoads) (s : HorseshoeSolver)
    (h : (HorseshoeSolver.create problem heap loads).run = .ok s) :
    Enumerates problem.airplanes (s.slots.map (·.panel)) ∧ s.strengths.length = s.slots.length ∧
    ∀ (g : ℕ) (slot : HorseshoeSlot), s.slots[g]? = some slot →
      ∃ (p : Panel) (a : Airplane) (v : HorseshoeVortex) (Γ : ℝ),
        panelAt problem.airplanes slot.panel = some p ∧ problem.airplanes[slot.panel.airplane]? = some a ∧
        (s.heap slot.panel).horseshoe = some v ∧ s.strengths[g]? = some Γ ∧
        slot.normal = p.unitNormal ∧ slot.area = p.area ∧ slot.collocation = p.collocationPoint ∧
        slot.momentReference = a.xyzRef ∧
        slot.frontRight = p.frontRightVortexVertex ∧ slot.frontLeft = p.frontLeftVortexVertex ∧
        slot.frontRight = v.rightLeg.termination ∧ slot.frontLeft = v.leftLeg.origin ∧
        slot.backRight = v.rightLeg.origin ∧ slot.backLeft = v.leftLeg.termination ∧
        slot.boundCenter = v.finiteLeg.center ∧ slot.boundVector = v.finiteLeg.vector ∧
        v.strength = Γ ∧ v.rightLeg.strength = Γ ∧ v.finiteLeg.strength = Γ ∧ v.leftLeg.strength = Γ := by
  have hc := counted_of_made hmade
  set S := HorseshoeSolver.create problem heap loads with hS
  obtain ⟨x, hx, hlen, rfl⟩ := HorseshoeSolver.run_result (s := S) hc (by simp [S, HorseshoeSolver.create]) h
  have hpan : (S.solved x).calculateForces.calculateStreamlines.slots.map (·.panel) = panelRefs problem.airplanes :=
    S.finalSlots_panels
  refine ⟨by rw [hpan]; exact enumerates_refs _, hlen, ?_⟩
  intro g slot hg
  have hg' : S.finalSlots[g]? = some slot := hg
  obtain ⟨r, hr⟩ := getElem?_of_length S.finalSlots_length hg'
  have := S.slot_get hr
  rw [hg'] at this
  cases this
  obtain ⟨p, hp⟩ := (mem_panelRefs _ _).mp (List.mem_of_getElem? hr)
  obtain ⟨a, w, ha, _, _⟩ := panelAt_cell hp
  obtain ⟨Γ, hΓ⟩ := getElem?_of_length hlen.symm hg'
  have hheap : (S.solved x).calculateForces.calculateStreamlines.heap r = _ := (S.final_heap x).1 g r hr
  have ha' : S.airplanes[r.airplane]? = some a := ha
  have hp' : panelAt S.airplanes r = some p := hp
  refine ⟨p, a, (S.panelVortex r).updateStrength Γ, Γ, hp, ha, ?_, hΓ, ?_⟩
  · show ((S.solved x).calculateForces.calculateStreamlines.heap r).horseshoe = _
    rw [hheap, getD_some hΓ]
  · simp only [HorseshoeSolver.slotOf, geometryOf_eq hp', ha', Option.map_some, Option.getD_some,
      HorseshoeSolver.panelVortex, HorseshoeVortex.mk', HorseshoeVortex.updateStrength, LineVortex.mk', and_self]

/-- C38 (ring solver): after a run the flattened arrays list every panel once, in order; the entries at an index
belong to that index's panel, the strength at that index is on that panel's ring and, at the trailing edge, on its
horseshoe and in the horseshoe array. -/
theorem C38_ring (problem : SteadyProblem) (hmade : ∀ a ∈ problem.airplanes, a.Made) (heap : PanelHeap)
    (loads : List AirplaneLoads) (s : RingSolver)
    (h : (RingSolver.create problem heap loads).run = .ok s) :
    Enumerates problem.airplanes (s.slots.map (·.panel)) ∧ s.strengths.length = s.slots.length ∧
    s.trailing.length = s.slots.length ∧
    ∀ (g : ℕ) (slot : RingSlot), s.slots[g]? = some slot →
      ∃ (p : Panel) (a : Airplane) (v : RingVortex) (Γ : ℝ) (t : TrailingSlot),
        panelAt problem.airplanes slot.panel = some p ∧ problem.airplanes[slot.panel.airplane]? = some a ∧
        (s.heap slot.panel).ring = some v ∧ s.strengths[g]? = some Γ ∧ s.trailing[g]? = some t ∧
        slot.normal = p.unitNormal ∧ slot.area = p.area ∧ slot.collocation = p.collocationPoint ∧
        slot.momentReference = a.xyzRef ∧
        slot.isLeadingEdge = p.isLeadingEdge ∧ slot.isTrailingEdge = p.isTrailingEdge ∧
        slot.isLeftEdge = p.isLeftEdge ∧ slot.isRightEdge = p.isRightEdge ∧
        slot.frontRight = p.frontRightVortexVertex ∧ slot.frontLeft = p.frontLeftVortexVertex ∧
        slot.frontRight = v.frontRight ∧ slot.frontLeft = v.frontLeft ∧
        slot.backRight = v.backRight ∧ slot.backLeft = v.backLeft ∧
        slot.frontCenter = v.frontLeg.center ∧ slot.frontVector = v.frontLeg.vector ∧
        slot.leftCenter = v.leftLeg.center ∧ slot.leftVector = v.leftLeg.vector ∧
        slot.rightCenter = v.rightLeg.center ∧ slot.rightVector = v.rightLeg.vector ∧
        slot.backCenter = v.backLeg.center ∧ slot.backVector = v.backLeg.vector ∧
        v.strength = Γ ∧ v.rightLeg.strength = Γ ∧ v.frontLeg.strength = Γ ∧ v.leftLeg.strength = Γ ∧
        v.backLeg.strength = Γ ∧
        (p.isTrailingEdge = true → ∃ k, (s.heap slot.panel).horseshoe = some k ∧ k.strength = Γ ∧
          k.finiteLegOrigin = v.backRight ∧ k.finiteLegTermination = v.backLeft ∧
          t = ⟨k.rightLeg.origin, k.rightLeg.termination, k.leftLeg.origin, k.leftLeg.termination, Γ⟩) ∧
        (p.isTrailingEdge = false → t.backRight = 0 ∧ t.frontRight = 0 ∧ t.frontLeft = 0 ∧ t.backLeft = 0) := by
  have hc := counted_of_made hmade
  set S := RingSolver.create problem heap loads with hS
  have hlt : S.trailing.length = totalPanels S.airplanes := by simp [S, RingSolver.create]
  have hun : S.Unsolved := RingSolver.create_unsolved problem hc heap loads
  obtain ⟨x, hx, hlen, rfl⟩ := RingSolver.run_result (s := S) hc (by simp [S, RingSolver.create]) hlt
    (by simp [S, RingSolver.create]) h
  have hpan : (S.solved x).calculateForces.calculateStreamlines.slots.map (·.panel) = panelRefs problem.airplanes :=
    S.finalSlots_panels
  have htr := RingSolver.solved_trailing S x hc hlt
  rw [RingSolver.unitTrailing_first hun] at htr
  have htl : (S.solved x).trailing.length = S.finalSlots.length := by
    rw [htr]; simp [RingSolver.finalSlots_length]
  refine ⟨by rw [hpan]; exact enumerates_refs _, hlen, htl, ?_⟩
  intro g slot hg
  have hg' : S.finalSlots[g]? = some slot := hg
  obtain ⟨r, hr⟩ := getElem?_of_length S.finalSlots_length hg'
  have := S.slot_get hr
  rw [hg'] at this
  cases this
  obtain ⟨p, hp⟩ := (mem_panelRefs _ _).mp (List.mem_of_getElem? hr)
  obtain ⟨a, w, ha, _, _⟩ := panelAt_cell hp
  obtain ⟨Γ, hΓ⟩ := getElem?_of_length hlen.symm hg'
  have hheap : (S.solved x).calculateForces.calculateStreamlines.heap r = _ := (S.final_heap x).1 g r hr
  have ha' : S.airplanes[r.airplane]? = some a := ha
  have hp' : panelAt S.airplanes r = some p := hp
  have hmem : r ∈ panelRefs S.airplanes := List.mem_of_getElem? hr
  have ht : (S.solved x).trailing[g]? = some (if (S.initializePanelVortices.heap r).horseshoe.isSome
      then { S.firstTrailing r with strength := Γ } else S.firstTrailing r) := by
    rw [htr]
    simp only [List.getElem?_zipWith, List.getElem?_zipIdx, List.getElem?_map, hg', hr, Option.map_some]
    simp only [ringSlot, Nat.zero_add, getD_some hΓ]
  refine ⟨p, a, (RingSolver.panelRing S.airplanes r).updateStrength Γ, Γ, _, hp, ha, ?_, hΓ, ht, ?_⟩
  · show ((S.solved x).calculateForces.calculateStreamlines.heap r).ring = _
    rw [hheap, getD_some hΓ]
  · have hh : ((S.solved x).calculateForces.calculateStreamlines.heap (ringSlot S.airplanes r
        (RingSolver.panelRing S.airplanes r)).panel) = _ := hheap
    rw [hh, getD_some hΓ]
    refine ⟨?_, ?_, ?_, ?_, ?_, ?_, ?_, ?_, ?_, ?_, ?_, ?_, ?_, ?_, ?_, ?_, ?_, ?_, ?_, ?_, ?_, ?_, ?_, ?_, ?_, ?_, ?_,
      ?_, ?_⟩
    any_goals (simp only [ringSlot, geometryOf_eq hp', ha', Option.map_some, Option.getD_some,
      RingSolver.panelRing, RingVortex.mk', RingVortex.updateStrength, LineVortex.mk']; done)
    · intro hte
      have hte' : (geometryOf S.airplanes r).isTrailingEdge = true := by rw [geometryOf_eq hp']; exact hte
      refine ⟨(S.panelHorseshoe r).updateStrength Γ, ?_, rfl, rfl, rfl, ?_⟩
      · simp [hte']
      · rw [S.init_heap.1 r hmem]
        simp only [RingSolver.initState, hte', if_true, Option.isSome_some, RingSolver.firstTrailing,
          RingSolver.trailingSlot]
        rfl
    · intro hte
      have hte' : (geometryOf S.airplanes r).isTrailingEdge = false := by rw [geometryOf_eq hp']; exact hte
      simp only [RingSolver.firstTrailing, hte', Bool.false_eq_true, if_false]
      split <;> simp

/-! ## C35 for the panels of a solver -/

/-- C35 (horseshoe solver): after a run, the force on every panel is the Kutta–Joukowski force on its bound leg,
with the velocity the solver reports at the centre of that leg, and the moment is about the airplane's reference
point. -/
theorem C35_horseshoe (problem : SteadyProblem) (hmade : ∀ a ∈ problem.airplanes, a.Made) (heap : PanelHeap)
    (loads : List AirplaneLoads) (s : HorseshoeSolver)
    (h : (HorseshoeSolver.create problem heap loads).run = .ok s) (r : PanelRef) (p : Panel) (a : Airplane)
    (hp : panelAt problem.airplanes r = some p) (ha : problem.airplanes[r.airplane]? = some a) :
    let from_ := p.frontRightVortexVertex
    let to_ := p.frontLeftVortexVertex
    let centre := (1 / 2 : ℝ) • (from_ + to_)
    ∃ L v u, (s.heap r).loads = some L ∧ (s.heap r).horseshoe = some v ∧ s.solutionVelocity [centre] = [u] ∧
      L.forceGeometry = kuttaJoukowski problem.operatingPoint.density v.strength u (to_ - from_) ∧
      L.momentGeometry = (centre - a.xyzRef).cross L.forceGeometry := by
  intro from_ to_ centre
  have hc := counted_of_made hmade
  set S := HorseshoeSolver.create problem heap loads with hS
  obtain ⟨x, hx, hlen, rfl⟩ := HorseshoeSolver.run_result (s := S) hc (by simp [S, HorseshoeSolver.create]) h
  have ha' : S.airplanes[r.airplane]? = some a := ha
  have hp' : panelAt S.airplanes r = some p := hp
  obtain ⟨g, hg⟩ := List.getElem?_of_mem ((mem_panelRefs S.airplanes r).mpr ⟨p, hp⟩)
  have hheap : (S.solved x).calculateForces.calculateStreamlines.heap r = _ := (S.final_heap x).1 g r hg
  obtain ⟨u, hu, hF, hM⟩ := S.forces_get x hlen hg
  have hcen : (S.panelVortex r).finiteLeg.center = centre := by
    simp only [HorseshoeSolver.panelVortex, HorseshoeVortex.mk', LineVortex.mk', geometryOf_eq hp', centre, from_, to_]
    ext <;> simp <;> ring
  have hvec : (S.panelVortex r).finiteLeg.vector = to_ - from_ := by
    simp only [HorseshoeSolver.panelVortex, HorseshoeVortex.mk', LineVortex.mk', geometryOf_eq hp', to_, from_]
  rw [hcen] at hu hM
  rw [hvec] at hF hM
  rw [ha'] at hM
  refine ⟨_, (S.panelVortex r).updateStrength (x.getD g 0), u, by rw [hheap], by rw [hheap], hu, ?_, ?_⟩
  · simp only [panelLoads]
    rw [getD_some hF]
    rfl
  · simp only [panelLoads]
    rw [getD_some hM, getD_some hF]
    rfl

/-- The net strengths the ring solver uses are those of the rings it leaves on the panels. -/
theorem RingSolver.final_strengthAt (S : RingSolver) (x : List ℝ) {g : ℕ} {r : PanelRef}
    (hg : (panelRefs S.airplanes)[g]? = some r) :
    strengthAt S.airplanes (S.solved x).heap r = x.getD g 0 := by
  obtain ⟨p, hp⟩ := (mem_panelRefs _ _).mp (List.mem_of_getElem? hg)
  rw [strengthAt_some hp, (S.solved_heap x).1 g r hg]
  rfl

theorem RingSolver.final_ring (S : RingSolver) (x : List ℝ) (r : PanelRef) :
    ((S.solved x).heap r).ring = ((S.solved x).calculateForces.heap r).ring := by
  by_cases hr : r ∈ panelRefs S.airplanes
  · obtain ⟨g, hg⟩ := List.getElem?_of_mem hr
    rw [(S.solved_heap x).1 g r hg, (S.final_heap x).1 g r hg]
  · rw [(S.solved_heap x).2 r hr, (S.final_heap x).2 r hr]

/-- The force on one side of a ring: Kutta–Joukowski with the given net strength and the velocity the ring solver
reports at the centre of that side. -/
def RingSolver.IsLegForce (s : RingSolver) (density net : ℝ) (from_ to_ f : V3) : Prop :=
  ∃ u, s.solutionVelocity [(1 / 2 : ℝ) • (from_ + to_)] = [u] ∧ f = kuttaJoukowski density net u (to_ - from_)

/-- C35 (ring solver): after a run, the force on every panel is the sum of the Kutta–Joukowski forces on the front,
left and right sides of its ring, with the net strengths of those sides and the velocity the solver reports at
their centres; the moment is the sum of the moments of the three forces, at these centres, about the airplane's
reference point. -/
theorem C35_ring (problem : SteadyProblem) (hmade : ∀ a ∈ problem.airplanes, a.Made) (heap : PanelHeap)
    (loads : List AirplaneLoads) (s : RingSolver)
    (h : (RingSolver.create problem heap loads).run = .ok s) (r : PanelRef) (p : Panel) (a : Airplane)
    (hp : panelAt problem.airplanes r = some p) (ha : problem.airplanes[r.airplane]? = some a) :
    let density := problem.operatingPoint.density
    let mid := fun a b : V3 => (1 / 2 : ℝ) • (a + b)
    ∃ (L : PanelLoads) (v : RingVortex) (F Lf R : V3), (s.heap r).loads = some L ∧ (s.heap r).ring = some v ∧
      s.IsLegForce density (netFront problem.airplanes s.heap r) v.frontRight v.frontLeft F ∧
      s.IsLegForce density (netLeft problem.airplanes s.heap r) v.frontLeft v.backLeft Lf ∧
      s.IsLegForce density (netRight problem.airplanes s.heap r) v.backRight v.frontRight R ∧
      L.forceGeometry = F + Lf + R ∧
      L.momentGeometry = (mid v.frontRight v.frontLeft - a.xyzRef).cross F
        + (mid v.frontLeft v.backLeft - a.xyzRef).cross Lf + (mid v.backRight v.frontRight - a.xyzRef).cross R := by
  intro density mid
  have hc := counted_of_made hmade
  set S := RingSolver.create problem heap loads with hS
  have hlt : S.trailing.length = totalPanels S.airplanes := by simp [S, RingSolver.create]
  obtain ⟨x, hx, hlen, rfl⟩ := RingSolver.run_result (s := S) hc (by simp [S, RingSolver.create]) hlt
    (by simp [S, RingSolver.create]) h
  have ha' : S.airplanes[r.airplane]? = some a := ha
  have hp' : panelAt S.airplanes r = some p := hp
  obtain ⟨g, hg⟩ := List.getElem?_of_mem ((mem_panelRefs S.airplanes r).mpr ⟨p, hp⟩)
  have hheap : (S.solved x).calculateForces.calculateStreamlines.heap r = _ := (S.final_heap x).1 g r hg
  obtain ⟨_, _, _, hF, hM⟩ := S.forces_get x hlen hg
  simp only at hF hM
  set v := RingSolver.panelRing S.airplanes r with hv
  have hmade' : ∀ a ∈ S.airplanes, a.Made := hmade
  have hnet := S.final_strengthAt x hg
  have hring : ∀ r, ((S.solved x).heap r).ring
      = ((S.solved x).calculateForces.calculateStreamlines.heap r).ring := S.final_ring x
  have hnF : effectiveFront S.airplanes (S.solved x).heap (x.getD g 0) r
      = netFront S.airplanes (S.solved x).calculateForces.calculateStreamlines.heap r := by
    rw [← hnet, effectiveFront_eq hmade' _ hp']
    unfold netFront
    simp only [strengthAt_congr hring]
  have hnL : effectiveLeft S.airplanes (S.solved x).heap (x.getD g 0) r
      = netLeft S.airplanes (S.solved x).calculateForces.calculateStreamlines.heap r := by
    rw [← hnet, effectiveLeft_eq hmade' _ hp']
    unfold netLeft
    simp only [strengthAt_congr hring]
  have hnR : effectiveRight S.airplanes (S.solved x).heap (x.getD g 0) r
      = netRight S.airplanes (S.solved x).calculateForces.calculateStreamlines.heap r := by
    rw [← hnet, effectiveRight_eq hmade' _ hp']
    unfold netRight
    simp only [strengthAt_congr hring]
  rw [hnF, hnL, hnR] at hF hM
  rw [ha'] at hM
  have hmid : ∀ (o t : V3) (Γ : ℝ), (LineVortex.mk' o t Γ).center = mid o t := by
    intro o t Γ
    simp only [LineVortex.mk', mid]
    ext <;> simp <;> ring
  have hvel : ∀ q, (S.solved x).calculateForces.calculateStreamlines.solutionVelocity [q]
      = [(S.solved x).velocityAt q] := by
    intro q
    have : (S.solved x).calculateForces.calculateStreamlines.solutionVelocity [q]
      = (S.solved x).solutionVelocity [q] := rfl
    rw [this, RingSolver.velocity_at _ _ hlen]
    rfl
  have hleg : ∀ (net : ℝ) (o t : V3) (Γ : ℝ), RingSolver.IsLegForce
      (S.solved x).calculateForces.calculateStreamlines density net o t
      (kuttaJoukowski density net ((S.solved x).velocityAt (LineVortex.mk' o t Γ).center)
        (LineVortex.mk' o t Γ).vector) := by
    intro net o t Γ
    exact ⟨_, hvel _, by rw [hmid]; rfl⟩
  refine ⟨_, v.updateStrength (x.getD g 0), _, _, _, by rw [hheap], by rw [hheap], hleg _ _ _ 0, hleg _ _ _ 0,
    hleg _ _ _ 0, ?_, ?_⟩
  · simp only [panelLoads]
    rw [getD_some hF]
    rfl
  · simp only [panelLoads]
    rw [getD_some hM, ← hmid _ _ 0, ← hmid _ _ 0, ← hmid _ _ 0]
    rfl

/-! ## C34: solving again -/

/-- C34 (horseshoe solver): if the first run succeeds, so does every further one, and strengths, panel and airplane
loads, vortices and array sizes stay those of the first run. The seed points are repeated once per run. -/
theorem C34_horseshoe (problem : SteadyProblem) (hmade : ∀ a ∈ problem.airplanes, a.Made) (heap : PanelHeap)
    (loads : List AirplaneLoads) (s : HorseshoeSolver)
    (h : (HorseshoeSolver.create problem heap loads).run = .ok s) (n : ℕ) :
    ∃ s', runTimes HorseshoeSolver.run (n + 1) (HorseshoeSolver.create problem heap loads) = .ok s' ∧
      s'.strengths = s.strengths ∧ s'.slots = s.slots ∧ s'.influences = s.influences ∧
      s'.freestream = s.freestream ∧ s'.heap = s.heap ∧ s'.loads = s.loads ∧
      (∀ points, s'.solutionVelocity points = s.solutionVelocity points) ∧
      s'.seedPoints = (List.replicate (n + 1) s.seedPoints).flatten := by
  have hc := counted_of_made hmade
  set S := HorseshoeSolver.create problem heap loads with hS
  obtain ⟨x, hx, hlen, rfl⟩ := HorseshoeSolver.run_result (s := S) hc (by simp [S, HorseshoeSolver.create]) h
  obtain ⟨lines, hs'⟩ := S.reruns_eq x hc hx n (S.solved x).calculateForces.calculateStreamlines.seedPoints
    (S.solved x).calculateForces.calculateStreamlines.streamlines
  have hrun : runTimes HorseshoeSolver.run (n + 1) S = runTimes HorseshoeSolver.run n
      (S.after x (S.solved x).calculateForces.calculateStreamlines.seedPoints
        (S.solved x).calculateForces.calculateStreamlines.streamlines) := by
    show S.run >>= _ = _
    rw [h]
    rfl
  refine ⟨_, hrun.trans hs', rfl, rfl, rfl, rfl, rfl, rfl, fun _ => rfl, ?_⟩
  rw [List.replicate_succ, List.flatten_cons]
  rfl

end Ptera
