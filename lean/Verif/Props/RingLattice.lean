import Verif.Lemmas.FreshRing
import Verif.Props.SteadyRuns
import Verif.Lemmas.PlateSolve

/-!
# C34, C36, C39 for the steady ring solver
-/

namespace Ptera

open Real

/-! ## C39: the bound rings tile the wing -/

theorem panelRing_vertices {as : List Airplane} {r : PanelRef} {p : Panel} (hp : panelAt as r = some p) :
    (RingSolver.panelRing as r).frontLeft = p.frontLeft + (1 / 4 : ℝ) • (p.backLeft - p.frontLeft) ∧
    (RingSolver.panelRing as r).frontRight = p.frontRight + (1 / 4 : ℝ) • (p.backRight - p.frontRight) := by
  simp only [RingSolver.panelRing, RingVortex.mk', geometryOf_eq hp, Panel.frontLeftVortexVertex,
    Panel.frontRightVortexVertex, Panel.leftLeg, Panel.rightLeg]
  constructor <;> ext <;> simp [-mul_eq_mul_right_iff] <;> ring

theorem panelRing_back {as : List Airplane} (hm : ∀ a ∈ as, a.Made) {r : PanelRef} {p : Panel}
    (hp : panelAt as r = some p) :
    (∀ q, panelAt as { r with row := r.row + 1 } = some q →
      (RingSolver.panelRing as r).backLeft = (RingSolver.panelRing as { r with row := r.row + 1 }).frontLeft ∧
      (RingSolver.panelRing as r).backRight = (RingSolver.panelRing as { r with row := r.row + 1 }).frontRight) ∧
    (panelAt as { r with row := r.row + 1 } = none →
      (RingSolver.panelRing as r).backLeft = (RingSolver.panelRing as r).frontLeft + (p.backLeft - p.frontLeft) ∧
      (RingSolver.panelRing as r).backRight
        = (RingSolver.panelRing as r).frontRight + (p.backRight - p.frontRight)) := by
  have hf := made_flags hm hp
  constructor
  · intro q hq
    have hte : p.isTrailingEdge = false := by
      by_contra h
      rw [hf.trailing.mp (by simpa using h)] at hq
      simp at hq
    simp [RingSolver.panelRing, RingVortex.mk', RingSolver.backLeftVertex, RingSolver.backRightVertex,
      geometryOf_eq hp, hte]
  · intro hq
    have hte : p.isTrailingEdge = true := hf.trailing.mpr hq
    simp [RingSolver.panelRing, RingVortex.mk', RingSolver.backLeftVertex, RingSolver.backRightVertex,
      geometryOf_eq hp, hte]

theorem panelRing_side {as : List Airplane} (hm : ∀ a ∈ as, a.Made) {r : PanelRef} {p q : Panel}
    (hp : panelAt as r = some p) (hq : panelAt as { r with col := r.col + 1 } = some q)
    (hs : SidesShared as r.airplane r.wing) :
    (RingSolver.panelRing as r).frontRight = (RingSolver.panelRing as { r with col := r.col + 1 }).frontLeft ∧
    (RingSolver.panelRing as r).backRight = (RingSolver.panelRing as { r with col := r.col + 1 }).backLeft := by
  have front : ∀ (i : ℕ) (p q : Panel), panelAt as ⟨r.airplane, r.wing, i, r.col⟩ = some p →
      panelAt as ⟨r.airplane, r.wing, i, r.col + 1⟩ = some q →
      (RingSolver.panelRing as ⟨r.airplane, r.wing, i, r.col⟩).frontRight
        = (RingSolver.panelRing as ⟨r.airplane, r.wing, i, r.col + 1⟩).frontLeft := by
    intro i p q hp hq
    obtain ⟨h1, h2⟩ := hs i r.col p q hp hq
    rw [(panelRing_vertices hp).2, (panelRing_vertices hq).1, h1, h2]
  refine ⟨front r.row p q hp hq, ?_⟩
  have hf := made_flags hm hp
  have hfq := made_flags hm hq
  by_cases hb : panelAt as { r with row := r.row + 1 } = none
  · have hte : q.isTrailingEdge = true := by
      rw [hfq.trailing]
      obtain ⟨a, w, ha, hw, hc⟩ := panelAt_cell hp
      have hwm : w.Made := (hm a (List.mem_of_getElem? ha)).wings w (List.mem_of_getElem? hw)
      obtain ⟨h1, h2⟩ := (made_cells hwm _ _).mp ⟨p, hc⟩
      rw [cell_panelAt (r := { r with row := r.row + 1 }) ha hw] at hb
      rw [cell_panelAt (r := { r with row := r.row + 1, col := r.col + 1 }) ha hw]
      by_contra hcon
      obtain ⟨q', hq'⟩ := Option.ne_none_iff_exists'.mp hcon
      obtain ⟨h3, h4⟩ := (made_cells hwm _ _).mp ⟨q', hq'⟩
      obtain ⟨q'', hq''⟩ := (made_cells hwm (r.row + 1) r.col).mpr ⟨h3, h2⟩
      simp only at hb
      rw [hq''] at hb
      simp at hb
    rw [((panelRing_back hm hp).2 hb).2, ((panelRing_back hm hq).2 (hfq.trailing.mp hte)).1]
    obtain ⟨h1, h2⟩ := hs r.row r.col p q hp hq
    rw [(panelRing_vertices hp).2, (panelRing_vertices hq).1, h1, h2]
  · obtain ⟨p', hp'⟩ := Option.ne_none_iff_exists'.mp hb
    have : ∃ q', panelAt as { r with row := r.row + 1, col := r.col + 1 } = some q' := by
      obtain ⟨a, w, ha, hw, hc⟩ := panelAt_cell hp
      have hwm : w.Made := (hm a (List.mem_of_getElem? ha)).wings w (List.mem_of_getElem? hw)
      rw [cell_panelAt (r := { r with row := r.row + 1 }) ha hw] at hp'
      rw [cell_panelAt (r := { r with col := r.col + 1 }) ha hw] at hq
      rw [cell_panelAt (r := { r with row := r.row + 1, col := r.col + 1 }) ha hw]
      exact (made_cells hwm _ _).mpr ⟨((made_cells hwm _ _).mp ⟨_, hp'⟩).1, ((made_cells hwm _ _).mp ⟨_, hq⟩).2⟩
    obtain ⟨q', hq'⟩ := this
    rw [((panelRing_back hm hp).1 p' hp').2, ((panelRing_back hm hq).1 q' hq').1]
    exact front (r.row + 1) p' q' hp' hq'

theorem RingSolver.ring_after {problem : SteadyProblem} (hmade : ∀ a ∈ problem.airplanes, a.Made) {heap : PanelHeap}
    {loads : List AirplaneLoads} {s : RingSolver} (h : (RingSolver.create problem heap loads).run = .ok s)
    {r : PanelRef} {p : Panel} (hp : panelAt problem.airplanes r = some p) :
    ∃ Γ, (s.heap r).ring = some ((RingSolver.panelRing problem.airplanes r).updateStrength Γ) := by
  have hc := counted_of_made hmade
  set S := RingSolver.create problem heap loads with hS
  obtain ⟨x, hx, hlen, rfl⟩ := RingSolver.run_result (s := S) hc (by simp [S, RingSolver.create])
    (by simp [S, RingSolver.create]) (by simp [S, RingSolver.create]) h
  obtain ⟨g, hg⟩ := List.getElem?_of_mem ((mem_panelRefs S.airplanes r).mpr ⟨p, hp⟩)
  have hheap : (S.solved x).calculateForces.calculateStreamlines.heap r = _ := (S.final_heap x).1 g r hg
  exact ⟨x.getD g 0, by rw [hheap]; rfl⟩

/-- C39 (steady ring solver): after a run, the front side of every bound ring lies on the quarter-chord line of its
panel; its back side is the front side of the ring behind it, or, in the last row, its front side moved by the
panel's own side vectors; and next to each other, the rings share their common side if the panels do. -/
theorem C39_steady (problem : SteadyProblem) (hmade : ∀ a ∈ problem.airplanes, a.Made) (heap : PanelHeap)
    (loads : List AirplaneLoads) (s : RingSolver) (h : (RingSolver.create problem heap loads).run = .ok s)
    (r : PanelRef) (p : Panel) (hp : panelAt problem.airplanes r = some p) :
    ∃ v, (s.heap r).ring = some v ∧
      v.frontLeft = p.frontLeft + (1 / 4 : ℝ) • (p.backLeft - p.frontLeft) ∧
      v.frontRight = p.frontRight + (1 / 4 : ℝ) • (p.backRight - p.frontRight) ∧
      (∀ q, panelAt problem.airplanes { r with row := r.row + 1 } = some q →
        ∃ v', (s.heap { r with row := r.row + 1 }).ring = some v' ∧
          v.backLeft = v'.frontLeft ∧ v.backRight = v'.frontRight) ∧
      (panelAt problem.airplanes { r with row := r.row + 1 } = none →
        v.backLeft = v.frontLeft + (p.backLeft - p.frontLeft) ∧
        v.backRight = v.frontRight + (p.backRight - p.frontRight)) ∧
      (∀ q, panelAt problem.airplanes { r with col := r.col + 1 } = some q →
        SidesShared problem.airplanes r.airplane r.wing →
        ∃ v', (s.heap { r with col := r.col + 1 }).ring = some v' ∧
          v.frontRight = v'.frontLeft ∧ v.backRight = v'.backLeft) := by
  obtain ⟨Γ, hΓ⟩ := RingSolver.ring_after hmade h hp
  obtain ⟨v1, v2⟩ := panelRing_vertices hp
  obtain ⟨b1, b2⟩ := panelRing_back hmade hp
  refine ⟨_, hΓ, v1, v2, ?_, b2, ?_⟩
  · intro q hq
    obtain ⟨Γ', hΓ'⟩ := RingSolver.ring_after hmade h hq
    exact ⟨_, hΓ', b1 q hq⟩
  · intro q hq hs
    obtain ⟨Γ', hΓ'⟩ := RingSolver.ring_after hmade h hq
    exact ⟨_, hΓ', panelRing_side hmade hp hq hs⟩

/-- C39 (horseshoe solver): after a run, the bound leg of every panel's horseshoe runs along the quarter-chord line from
the right to the left side of the panel; its two other legs leave its ends along the freestream and are 20 spans of the
panel's wing long. -/
theorem C39_horseshoes (problem : SteadyProblem) (hmade : ∀ a ∈ problem.airplanes, a.Made) (heap : PanelHeap)
    (loads : List AirplaneLoads) (s : HorseshoeSolver)
    (h : (HorseshoeSolver.create problem heap loads).run = .ok s) (r : PanelRef) (p : Panel)
    (hp : panelAt problem.airplanes r = some p) (a : Airplane) (ha : problem.airplanes[r.airplane]? = some a) (w : Wing)
    (hw : a.wings[r.wing]? = some w) :
    ∃ v, (s.heap r).horseshoe = some v ∧
      v.finiteLeg.origin = p.frontRight + (1 / 4 : ℝ) • (p.backRight - p.frontRight) ∧
      v.finiteLeg.termination = p.frontLeft + (1 / 4 : ℝ) • (p.backLeft - p.frontLeft) ∧
      v.rightLeg.termination = v.finiteLeg.origin ∧ v.leftLeg.origin = v.finiteLeg.termination ∧
      v.rightLeg.origin = v.finiteLeg.origin + (20 * w.span) • problem.operatingPoint.freestreamDirection ∧
      v.leftLeg.termination = v.finiteLeg.termination + (20 * w.span) • problem.operatingPoint.freestreamDirection := by
  have hc := counted_of_made hmade
  set S := HorseshoeSolver.create problem heap loads with hS
  obtain ⟨x, hx, hlen, rfl⟩ := HorseshoeSolver.run_result (s := S) hc (by simp [S, HorseshoeSolver.create]) h
  obtain ⟨g, hg⟩ := List.getElem?_of_mem ((mem_panelRefs S.airplanes r).mpr ⟨p, hp⟩)
  have hheap : (S.solved x).calculateForces.calculateStreamlines.heap r = _ := (S.final_heap x).1 g r hg
  have hp' : panelAt S.airplanes r = some p := hp
  have hw' : wingAt S.airplanes r = some w := by
    show wingAt problem.airplanes r = some w
    simp [wingAt, ha, hw]
  have ho : S.operatingPoint = problem.operatingPoint := rfl
  refine ⟨(S.panelVortex r).updateStrength (x.getD g 0), by rw [hheap], ?_, ?_, rfl, rfl, ?_, ?_⟩
  · simp only [HorseshoeSolver.panelVortex, HorseshoeVortex.mk', HorseshoeVortex.updateStrength, LineVortex.mk',
      geometryOf_eq hp', Panel.frontRightVortexVertex, Panel.rightLeg]
    ext <;> simp [-mul_eq_mul_right_iff] <;> ring
  · simp only [HorseshoeSolver.panelVortex, HorseshoeVortex.mk', HorseshoeVortex.updateStrength, LineVortex.mk',
      geometryOf_eq hp', Panel.frontLeftVortexVertex, Panel.leftLeg]
    ext <;> simp [-mul_eq_mul_right_iff] <;> ring
  · simp only [HorseshoeSolver.panelVortex, HorseshoeVortex.mk', HorseshoeVortex.updateStrength, LineVortex.mk', hw',
      Option.map_some, Option.getD_some, mul_comm w.span, ho]
  · simp only [HorseshoeSolver.panelVortex, HorseshoeVortex.mk', HorseshoeVortex.updateStrength, LineVortex.mk', hw',
      Option.map_some, Option.getD_some, mul_comm w.span, ho]

/-- C39 (steady ring solver): after a run, every panel of the last row carries a horseshoe too; its bound leg is the
back side of the panel's ring, run through the other way, with the same strength, so that the two cancel; its two other
legs leave its ends along the freestream and are 20 spans of the panel's wing long. -/
theorem C39_trailing_horseshoes (problem : SteadyProblem) (hmade : ∀ a ∈ problem.airplanes, a.Made) (heap : PanelHeap)
    (loads : List AirplaneLoads) (s : RingSolver) (h : (RingSolver.create problem heap loads).run = .ok s)
    (r : PanelRef) (p : Panel) (hp : panelAt problem.airplanes r = some p)
    (hlast : panelAt problem.airplanes { r with row := r.row + 1 } = none) (a : Airplane)
    (ha : problem.airplanes[r.airplane]? = some a) (w : Wing) (hw : a.wings[r.wing]? = some w) :
    ∃ (ring : RingVortex) (v : HorseshoeVortex), (s.heap r).ring = some ring ∧ (s.heap r).horseshoe = some v ∧
      v.finiteLeg.origin = ring.backLeg.termination ∧ v.finiteLeg.termination = ring.backLeg.origin ∧
      v.finiteLeg.strength = ring.backLeg.strength ∧
      v.rightLeg.termination = v.finiteLeg.origin ∧ v.leftLeg.origin = v.finiteLeg.termination ∧
      v.rightLeg.origin = v.finiteLeg.origin + (20 * w.span) • problem.operatingPoint.freestreamDirection ∧
      v.leftLeg.termination = v.finiteLeg.termination + (20 * w.span) • problem.operatingPoint.freestreamDirection := by
  have hc := counted_of_made hmade
  set S := RingSolver.create problem heap loads with hS
  obtain ⟨x, hx, hlen, rfl⟩ := RingSolver.run_result (s := S) hc (by simp [S, RingSolver.create])
    (by simp [S, RingSolver.create]) (by simp [S, RingSolver.create]) h
  obtain ⟨g, hg⟩ := List.getElem?_of_mem ((mem_panelRefs S.airplanes r).mpr ⟨p, hp⟩)
  have hheap : (S.solved x).calculateForces.calculateStreamlines.heap r = _ := (S.final_heap x).1 g r hg
  have hp' : panelAt S.airplanes r = some p := hp
  have hte : (geometryOf S.airplanes r).isTrailingEdge = true := by
    rw [geometryOf_eq hp']
    exact (made_flags hmade hp).trailing.mpr hlast
  have hw' : wingAt S.airplanes r = some w := by
    show wingAt problem.airplanes r = some w
    simp [wingAt, ha, hw]
  have ho : S.operatingPoint = problem.operatingPoint := rfl
  refine ⟨(RingSolver.panelRing S.airplanes r).updateStrength (x.getD g 0),
    (S.panelHorseshoe r).updateStrength (x.getD g 0), by rw [hheap], by rw [hheap]; simp [hte], rfl, rfl, rfl, rfl, rfl,
    ?_, ?_⟩
  · simp only [RingSolver.panelHorseshoe, HorseshoeVortex.mk', HorseshoeVortex.updateStrength, LineVortex.mk', hw',
      Option.map_some, Option.getD_some, mul_comm w.span, ho]
  · simp only [RingSolver.panelHorseshoe, HorseshoeVortex.mk', HorseshoeVortex.updateStrength, LineVortex.mk', hw',
      Option.map_some, Option.getD_some, mul_comm w.span, ho]

/-! ## C36: how often each bound filament is loaded -/

/-- The force on a filament does not depend on which way along it the circulation is counted. -/
theorem RingSolver.IsLegForce.reverse {s : RingSolver} {density net : ℝ} {a b f : V3}
    (h : s.IsLegForce density net a b f) : s.IsLegForce density (-net) b a f := by
  obtain ⟨u, hu, hf⟩ := h
  refine ⟨u, by rw [add_comm b a]; exact hu, ?_⟩
  rw [hf]
  unfold kuttaJoukowski
  rw [← neg_sub b a, V3.cross_neg]
  ext <;> simp

theorem RingSolver.IsLegForce.unique {s : RingSolver} {density net : ℝ} {a b f g : V3}
    (h : s.IsLegForce density net a b f) (h' : s.IsLegForce density net a b g) : f = g := by
  obtain ⟨u, hu, hf⟩ := h
  obtain ⟨u', hu', hf'⟩ := h'
  rw [hu] at hu'
  simp at hu'
  rw [hf, hf', hu']

/-- Sum of a list with the inner filaments counted from both sides. -/
theorem twice_inner (n : ℕ) (F L R : ℕ → V3) (h : ∀ j, j + 1 < n + 1 → R j = L (j + 1)) :
    ((List.range (n + 1)).map fun j => F j + L j + R j).sum
      = ((List.range (n + 1)).map F).sum + (L 0 + R n) + (2 : ℝ) • ((List.range n).map fun j => L (j + 1)).sum := by
  induction n with
  | zero => simp; abel
  | succ n ih =>
    have e1 : ∀ (f : ℕ → V3) (m : ℕ), ((List.range (m + 1)).map f).sum = ((List.range m).map f).sum + f m := by
      intro f m
      rw [List.range_succ, List.map_append, List.sum_append]
      simp
    rw [e1 _ (n + 1), ih (fun j hj => h j (by omega)), e1 F (n + 1), e1 (fun j => L (j + 1)) n, h n (by omega)]
    ext <;> simp <;> ring

/-- C36 (steady ring solver, exact multiplicities): on a wing whose neighbouring panels share their sides, the
forces of the `n` panels of a row add up to the forces on its `n` front filaments, plus once the forces on the two
outer chordwise filaments, plus *twice* the forces on the `n - 1` inner chordwise filaments. `side j` is the force on
the chordwise filament to the left of column `j`. -/
theorem C36_multiplicities (problem : SteadyProblem) (hmade : ∀ a ∈ problem.airplanes, a.Made) (heap : PanelHeap)
    (loads : List AirplaneLoads) (s : RingSolver) (h : (RingSolver.create problem heap loads).run = .ok s)
    (a w i : ℕ) (W : Wing) (hW : wingAt problem.airplanes ⟨a, w, i, 0⟩ = some W) (hi : i < W.panels.length)
    (n : ℕ) (hn : W.numSpanwisePanels = n + 1) (hs : SidesShared problem.airplanes a w) :
    ∃ (force front side : ℕ → V3) (ring : ℕ → RingVortex),
      (∀ j ≤ n, ∃ L, (s.heap ⟨a, w, i, j⟩).loads = some L ∧ (s.heap ⟨a, w, i, j⟩).ring = some (ring j) ∧
        L.forceGeometry = force j ∧
        s.IsLegForce problem.operatingPoint.density (netFront problem.airplanes s.heap ⟨a, w, i, j⟩)
          (ring j).frontRight (ring j).frontLeft (front j) ∧
        s.IsLegForce problem.operatingPoint.density (netLeft problem.airplanes s.heap ⟨a, w, i, j⟩)
          (ring j).frontLeft (ring j).backLeft (side j)) ∧
      s.IsLegForce problem.operatingPoint.density (netRight problem.airplanes s.heap ⟨a, w, i, n⟩)
        (ring n).backRight (ring n).frontRight (side (n + 1)) ∧
      ((List.range (n + 1)).map force).sum = ((List.range (n + 1)).map front).sum + (side 0 + side (n + 1))
        + (2 : ℝ) • ((List.range n).map fun j => side (j + 1)).sum := by
  obtain ⟨A, hA, hAw⟩ := Option.bind_eq_some_iff.mp hW
  have hWm : W.Made := (hmade A (List.mem_of_getElem? hA)).wings W (List.mem_of_getElem? hAw)
  have hex : ∀ j, j ≤ n → ∃ p, panelAt problem.airplanes ⟨a, w, i, j⟩ = some p := by
    intro j hj
    rw [cell_panelAt (r := ⟨a, w, i, j⟩) hA hAw]
    exact (made_cells hWm _ _).mpr ⟨hi, by rw [hn]; show j < n + 1; omega⟩
  have hall : ∀ j, ∃ x : V3 × V3 × V3 × V3 × RingVortex, j ≤ n →
      ∃ L, (s.heap ⟨a, w, i, j⟩).loads = some L ∧ (s.heap ⟨a, w, i, j⟩).ring = some x.2.2.2.2 ∧
        L.forceGeometry = x.1 ∧
        s.IsLegForce problem.operatingPoint.density (netFront problem.airplanes s.heap ⟨a, w, i, j⟩)
          x.2.2.2.2.frontRight x.2.2.2.2.frontLeft x.2.1 ∧
        s.IsLegForce problem.operatingPoint.density (netLeft problem.airplanes s.heap ⟨a, w, i, j⟩)
          x.2.2.2.2.frontLeft x.2.2.2.2.backLeft x.2.2.1 ∧
        s.IsLegForce problem.operatingPoint.density (netRight problem.airplanes s.heap ⟨a, w, i, j⟩)
          x.2.2.2.2.backRight x.2.2.2.2.frontRight x.2.2.2.1 ∧ x.1 = x.2.1 + x.2.2.1 + x.2.2.2.1 := by
    intro j
    by_cases hj : j ≤ n
    · obtain ⟨p, hp⟩ := hex j hj
      obtain ⟨L, v, F, Lf, R, h1, h2, h3, h4, h5, h6, _⟩ := C35_ring problem hmade heap loads s h ⟨a, w, i, j⟩ p A hp hA
      exact ⟨(L.forceGeometry, F, Lf, R, v), fun _ => ⟨L, h1, h2, rfl, h3, h4, h5, h6⟩⟩
    · exact ⟨(0, 0, 0, 0, RingVortex.mk' 0 0 0 0 0), fun hj' => absurd hj' hj⟩
  choose x hx using hall
  have hshare : ∀ j, j + 1 < n + 1 → (x j).2.2.2.1 = (x (j + 1)).2.2.1 := by
    intro j hj
    obtain ⟨L, e1, e2, e3, e4, e5, e6, e7⟩ := hx j (by omega)
    obtain ⟨L', e1', e2', e3', e4', e5', e6', e7'⟩ := hx (j + 1) (by omega)
    obtain ⟨p, hp⟩ := hex j (by omega)
    obtain ⟨q, hq⟩ := hex (j + 1) (by omega)
    obtain ⟨v, hv, _, _, _, _, hside⟩ := C39_steady problem hmade heap loads s h ⟨a, w, i, j⟩ p hp
    obtain ⟨v', hv', g1, g2⟩ := hside q hq hs
    rw [e2] at hv
    have hv'' : (x (j + 1)).2.2.2.2 = v' := by
      have : (s.heap ⟨a, w, i, j + 1⟩).ring = some v' := hv'
      rw [e2'] at this
      exact Option.some.inj this
    have hv1 : (x j).2.2.2.2 = v := Option.some.inj hv
    have hrev := e6.reverse
    rw [hv1, g1, g2, ← hv''] at hrev
    have hnet : -netRight problem.airplanes s.heap ⟨a, w, i, j⟩ = netLeft problem.airplanes s.heap ⟨a, w, i, j + 1⟩ := by
      unfold netRight netLeft
      simp
    rw [hnet] at hrev
    exact hrev.unique e5'
  refine ⟨fun j => (x j).1, fun j => (x j).2.1, fun j => if j ≤ n then (x j).2.2.1 else (x n).2.2.2.1,
    fun j => (x j).2.2.2.2, ?_, ?_, ?_⟩
  · intro j hj
    obtain ⟨L, e1, e2, e3, e4, e5, e6, e7⟩ := hx j hj
    exact ⟨L, e1, e2, e3, e4, by simp only; rw [if_pos hj]; exact e5⟩
  · simp only
    rw [if_neg (by omega)]
    obtain ⟨L, e1, e2, e3, e4, e5, e6, e7⟩ := hx n le_rfl
    exact e6
  · have e : (List.range (n + 1)).map (fun j => (x j).1)
        = (List.range (n + 1)).map fun j => (x j).2.1 + (x j).2.2.1 + (x j).2.2.2.1 := by
      apply List.map_congr_left
      intro j hj
      obtain ⟨L, e1, e2, e3, e4, e5, e6, e7⟩ := hx j (by simp at hj; omega)
      exact e7
    rw [e, twice_inner n _ _ _ hshare]
    simp only
    rw [if_pos (by omega), if_neg (by omega)]
    congr 3
    apply List.map_congr_left
    intro j hj
    rw [if_pos (by simp at hj; omega)]

/-! ## C34: solving again with the ring solver -/

/-- Thirty degrees of angle of attack. -/
noncomputable def steepFlow (V : ℝ) : OperatingPoint := { velocity := V, alpha := 30, beta := 0 }

theorem steepFlow_direction (V : ℝ) : (steepFlow V).freestreamDirection = ⟨√3 / 2, 0, 1 / 2⟩ := by
  rw [C01_freestream_direction]
  have e1 : (30 : ℝ) * π / 180 = π / 6 := by ring
  ext <;> simp [steepFlow, e1, cos_pi_div_six, sin_pi_div_six]

theorem steepFlow_velocity (V : ℝ) : (steepFlow V).freestreamVelocity.z = V / 2 := by
  unfold OperatingPoint.freestreamVelocity
  rw [steepFlow_direction]
  simp [steepFlow]
  ring

theorem steepFlow_ahead (V : ℝ) : |(steepFlow V).freestreamDirection.y| ≤ (steepFlow V).freestreamDirection.x := by
  rw [steepFlow_direction]
  simp only [abs_zero]
  positivity

/-- C34 fails for the ring solver: on a flat plate with one panel the second run of the same solver object succeeds
and gives another strength. -/
theorem C34_ring_fails : ∃ (problem : SteadyProblem) (s s' : RingSolver), (∀ a ∈ problem.airplanes, a.Made) ∧
    (RingSolver.create problem).run = .ok s ∧ s.run = .ok s' ∧ s'.strengths ≠ s.strengths := by
  obtain ⟨a, hmade, hrefs, hp, hspan, -⟩ := plate_airplane
  have hc : Counted [a] := counted_of_made (by simpa using hmade)
  have hn : totalPanels [a] = 1 := by rw [← panelRefs_length _ hc, hrefs]; rfl
  set T := plateTrailing ⟨√3 / 2, 0, 1 / 2⟩ with hT
  have hpos : 0 < plateRing + T := by
    have := plate_total_pos (steepFlow 1).freestreamDirection (steepFlow_ahead 1)
    rwa [steepFlow_direction] at this
  have hR := plateRing_pos
  -- one of two speeds leaves the second system regular
  have hV : ∃ V : ℝ, 0 < V ∧ -(V / 2) / (plateRing + T) * plateRing + T ≠ 0 := by
    by_contra hcon
    push Not at hcon
    have h1 := hcon 1 one_pos
    have h2 := hcon 2 two_pos
    have h3 : (1 : ℝ) / 2 / (plateRing + T) * plateRing = 0 := by
      have : -(2 / 2 : ℝ) / (plateRing + T) * plateRing = 2 * (-(1 / 2 : ℝ) / (plateRing + T) * plateRing) := by ring
      rw [this] at h2
      have h4 : -(1 / 2 : ℝ) / (plateRing + T) * plateRing = 0 := by linarith
      rw [show (1 : ℝ) / 2 / (plateRing + T) * plateRing = -(-(1 / 2 : ℝ) / (plateRing + T) * plateRing) by ring, h4,
        neg_zero]
    have : 0 < (1 : ℝ) / 2 / (plateRing + T) * plateRing := by positivity
    linarith
  obtain ⟨V, hVpos, hV⟩ := hV
  obtain ⟨s, hs, hstr⟩ := plate_ring_run (steepFlow V) hmade hrefs hp hspan (steepFlow_ahead V) PanelHeap.fresh []
  rw [steepFlow_velocity, steepFlow_direction] at hstr
  have hmade' : ∀ b ∈ [a], b.Made := by simpa using hmade
  obtain ⟨x, _, hlen, hs'⟩ := RingSolver.run_result (s := RingSolver.create ⟨[a], steepFlow V⟩) hc
    (by simp [RingSolver.create]) (by simp [RingSolver.create]) (by simp [RingSolver.create]) hs
  have hsa : s.airplanes = [a] := by rw [hs']; rfl
  have hso : s.operatingPoint = steepFlow V := by rw [hs']; rfl
  have hsv : s.freestreamVelocity = (steepFlow V).freestreamVelocity := by rw [hs']; rfl
  obtain ⟨_, _, htl, _⟩ := C38_ring ⟨[a], steepFlow V⟩ hmade' PanelHeap.fresh [] s hs
  have hsl : s.slots.length = 1 := by
    rw [hs']
    show (RingSolver.finalSlots _).length = 1
    rw [RingSolver.finalSlots_length]
    show (panelRefs [a]).length = 1
    rw [hrefs]; rfl
  have hrun := RingSolver.run_eq s (by rw [hsa]; exact hc) (by rw [hsa, hn, hsl]) (by rw [hsa, hn, htl, hsl])
  rw [plate_ring_influences (steepFlow V) hmade hrefs hp hspan s hsa hso _ hstr (by rw [htl, hsl]),
    plate_ring_freestream hrefs hp s hsa, hsv, steepFlow_velocity, steepFlow_direction, List.map_cons, List.map_nil,
    linalgSolve_one _ _ hV] at hrun
  refine ⟨⟨[a], steepFlow V⟩, s, _, hmade', hs, hrun, ?_⟩
  rw [hstr]
  show [_] ≠ [_]
  simp only [ne_eq, List.cons.injEq, and_true]
  set Γ := -(V / 2) / (plateRing + T) with hΓ
  have hneg : Γ < 0 := by rw [hΓ]; exact div_neg_of_neg_of_pos (by linarith) hpos
  have hΓeq : Γ * (plateRing + T) = -(V / 2) := by rw [hΓ]; field_simp
  intro hcon
  rw [div_eq_iff hV, ← hΓeq] at hcon
  have : Γ * (1 - Γ) * plateRing = 0 := by linarith [hcon]
  have hne : Γ * (1 - Γ) * plateRing < 0 := mul_neg_of_neg_of_pos (mul_neg_of_neg_of_pos hneg (by linarith)) hR
  linarith

/-- C34 (ring solver, what does hold): a *new* ring solver on the same problem gives the same strengths, arrays, loads
and velocities, and puts the same vortices and loads on the panels, whatever earlier solvers left there. -/
theorem C34_ring_new_solver (problem : SteadyProblem) (hmade : ∀ a ∈ problem.airplanes, a.Made)
    (heap heap' : PanelHeap) (loads loads' : List AirplaneLoads) (s : RingSolver)
    (h : (RingSolver.create problem heap loads).run = .ok s) :
    ∃ s', (RingSolver.create problem heap' loads').run = .ok s' ∧ s'.strengths = s.strengths ∧ s'.slots = s.slots ∧
      s'.influences = s.influences ∧ s'.loads = s.loads ∧
      (∀ points, s'.solutionVelocity points = s.solutionVelocity points) ∧
      ∀ r p, panelAt problem.airplanes r = some p → (s'.heap r).ring = (s.heap r).ring ∧
        (s'.heap r).loads = (s.heap r).loads ∧
        (p.isTrailingEdge = true → (s'.heap r).horseshoe = (s.heap r).horseshoe) := by
  have hc := counted_of_made hmade
  exact RingSolver.Alike.run ⟨RingSolver.create_unsolved problem hc heap loads,
    RingSolver.create_unsolved problem hc heap' loads', rfl, rfl, rfl⟩ hmade h

/-! ## The hypotheses are met -/

/-- A solved problem for every theorem about runs of the horseshoe solver (C33, C34, C35, C37, C38), with a non-zero
strength. -/
example : ∃ (problem : SteadyProblem) (s : HorseshoeSolver), (∀ a ∈ problem.airplanes, a.Made) ∧
    (HorseshoeSolver.create problem).run = .ok s ∧ ∃ Γ, s.strengths = [Γ] ∧ Γ < 0 := by
  obtain ⟨a, hmade, hrefs, hp, hspan, -⟩ := plate_airplane
  obtain ⟨s, hs, hstr⟩ := plate_horseshoe_run (steepFlow 10) hmade hrefs hp hspan (steepFlow_ahead 10) PanelHeap.fresh []
  refine ⟨⟨[a], steepFlow 10⟩, s, by simpa using hmade, hs, _, hstr, ?_⟩
  rw [steepFlow_velocity]
  exact div_neg_of_neg_of_pos (by norm_num) (plateHorseshoe_pos _ (steepFlow_ahead 10))

/-- A solved problem for every theorem about runs of the ring solver (C33–C39), with a non-zero strength. -/
example : ∃ (problem : SteadyProblem) (s : RingSolver), (∀ a ∈ problem.airplanes, a.Made) ∧
    (RingSolver.create problem).run = .ok s ∧ ∃ Γ, s.strengths = [Γ] ∧ Γ < 0 := by
  obtain ⟨a, hmade, hrefs, hp, hspan, -⟩ := plate_airplane
  obtain ⟨s, hs, hstr⟩ := plate_ring_run (steepFlow 10) hmade hrefs hp hspan (steepFlow_ahead 10) PanelHeap.fresh []
  refine ⟨⟨[a], steepFlow 10⟩, s, by simpa using hmade, hs, _, hstr, ?_⟩
  rw [steepFlow_velocity]
  exact div_neg_of_neg_of_pos (by norm_num) (plate_total_pos _ (steepFlow_ahead 10))

end Ptera
