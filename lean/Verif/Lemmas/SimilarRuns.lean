import Verif.Lemmas.Similar

/-! Runs of the steady solvers on problems that are images of each other. -/

namespace Ptera

/-- Two steady problems, the second the image of the first under `x ↦ M x + t`, with the speed multiplied by `c` and
the density by `k`. -/
structure SimilarProblems (P P' : SteadyProblem) (M : M3) (t : V3) (sw : ℕ → ℕ → Bool) (c k : ℝ) (ρ : ℕ → ℕ)
    (ω : ℕ → ℕ → ℕ) : Prop where
  airplanes : SimilarAirplanes P.airplanes P'.airplanes M t sw ρ ω
  made : ∀ a ∈ P.airplanes, a.Made
  made' : ∀ a ∈ P'.airplanes, a.Made
  nonzero : c ≠ 0
  direction : P'.operatingPoint.freestreamDirection = M.mulVec P.operatingPoint.freestreamDirection
  velocity : P'.operatingPoint.freestreamVelocity = c • M.mulVec P.operatingPoint.freestreamVelocity
  density : P'.operatingPoint.density = k * P.operatingPoint.density

/-- The same, whatever the reference points. -/
structure SimilarFlows (P P' : SteadyProblem) (M : M3) (t : V3) (sw : ℕ → ℕ → Bool) (c k : ℝ) (ρ : ℕ → ℕ)
    (ω : ℕ → ℕ → ℕ) : Prop where
  airplanes : SimilarShapes P.airplanes P'.airplanes M t sw ρ ω
  made : ∀ a ∈ P.airplanes, a.Made
  made' : ∀ a ∈ P'.airplanes, a.Made
  nonzero : c ≠ 0
  direction : P'.operatingPoint.freestreamDirection = M.mulVec P.operatingPoint.freestreamDirection
  velocity : P'.operatingPoint.freestreamVelocity = c • M.mulVec P.operatingPoint.freestreamVelocity
  density : P'.operatingPoint.density = k * P.operatingPoint.density

/-- The same, whichever airplanes the wings belong to. -/
structure SimilarLattices (P P' : SteadyProblem) (M : M3) (t : V3) (sw : ℕ → ℕ → Bool) (c k : ℝ) (ρ ω : ℕ → ℕ → ℕ) :
    Prop where
  airplanes : SimilarWings P.airplanes P'.airplanes M t sw ρ ω
  made : ∀ a ∈ P.airplanes, a.Made
  made' : ∀ a ∈ P'.airplanes, a.Made
  nonzero : c ≠ 0
  direction : P'.operatingPoint.freestreamDirection = M.mulVec P.operatingPoint.freestreamDirection
  velocity : P'.operatingPoint.freestreamVelocity = c • M.mulVec P.operatingPoint.freestreamVelocity
  density : P'.operatingPoint.density = k * P.operatingPoint.density

theorem SimilarFlows.lattices {P P' : SteadyProblem} {M : M3} {t : V3} {sw : ℕ → ℕ → Bool} {c k : ℝ} {ρ : ℕ → ℕ}
    {ω : ℕ → ℕ → ℕ} (h : SimilarFlows P P' M t sw c k ρ ω) : SimilarLattices P P' M t sw c k (fun a _ => ρ a) ω :=
  ⟨h.airplanes.similarWings, h.made, h.made', h.nonzero, h.direction, h.velocity, h.density⟩

theorem SimilarProblems.flows {P P' : SteadyProblem} {M : M3} {t : V3} {sw : ℕ → ℕ → Bool} {c k : ℝ} {ρ : ℕ → ℕ}
    {ω : ℕ → ℕ → ℕ} (h : SimilarProblems P P' M t sw c k ρ ω) : SimilarFlows P P' M t sw c k ρ ω :=
  ⟨h.airplanes.shapes, h.made, h.made', h.nonzero, h.direction, h.velocity, h.density⟩

namespace HorseshoeSolver

/-- Velocity of the unit horseshoe of a panel. -/
noncomputable def panelUnit (P : SteadyProblem) (r : PanelRef) (q : V3) : V3 :=
  unit (slotOf P.airplanes r ((create P).panelVortex r)) q

/-- The influence of one panel on another, and the freestream's. -/
noncomputable def coefficient (P : SteadyProblem) (i j : PanelRef) : ℝ :=
  (panelUnit P j (geometryOf P.airplanes i).collocationPoint).dot (geometryOf P.airplanes i).unitNormal
noncomputable def rhs (P : SteadyProblem) (i : PanelRef) : ℝ :=
  -(P.operatingPoint.freestreamVelocity.dot (geometryOf P.airplanes i).unitNormal)

theorem system_eq (P : SteadyProblem) (hm : ∀ a ∈ P.airplanes, a.Made) (heap : PanelHeap) (loads : List AirplaneLoads) :
    (create P heap loads).finalInfluences
      = (panelRefs P.airplanes).map (fun i => (panelRefs P.airplanes).map fun j => coefficient P i j) ∧
    (create P heap loads).finalFreestream.map (fun x => -x) = (panelRefs P.airplanes).map (rhs P) := by
  constructor
  · rw [finalInfluences_eq _ (counted_of_made hm)]
    unfold finalSlots
    rw [List.map_map]
    apply List.map_congr_left
    intro i _
    simp only [Function.comp, List.map_map]
    rfl
  · unfold finalFreestream freestreamInfluences finalSlots
    simp only [List.map_map]
    rfl

theorem run_values {P : SteadyProblem} (hm : ∀ a ∈ P.airplanes, a.Made) {heap : PanelHeap} {loads : List AirplaneLoads}
    {s : HorseshoeSolver} (h : (create P heap loads).run = .ok s) :
    ∃ Γ : PanelRef → ℝ,
      linalgSolve ((panelRefs P.airplanes).map fun i => (panelRefs P.airplanes).map fun j => coefficient P i j)
        ((panelRefs P.airplanes).map (rhs P)) = .ok ((panelRefs P.airplanes).map Γ) ∧
      (∀ r p, panelAt P.airplanes r = some p → ∃ v, (s.heap r).horseshoe = some v ∧ v.strength = Γ r) ∧
      (∀ q, s.solutionVelocity [q]
        = [((panelRefs P.airplanes).map fun r => Γ r • panelUnit P r q).sum + P.operatingPoint.freestreamVelocity]) := by
  have hc := counted_of_made hm
  set S := create P heap loads with hS
  obtain ⟨x, hx, hlen, rfl⟩ := run_result (s := S) hc (by simp [S, create]) h
  have hlen' : x.length = (panelRefs P.airplanes).length := by rw [hlen, finalSlots_length]; rfl
  obtain ⟨Γ, rfl⟩ := exists_values (panelRefs_nodup P.airplanes) hlen'
  obtain ⟨e1, e2⟩ := system_eq P hm heap loads
  rw [← hS] at e1 e2
  rw [e1, e2] at hx
  refine ⟨Γ, hx, ?_, ?_⟩
  · intro r p hp
    obtain ⟨g, hg⟩ := List.getElem?_of_mem ((mem_panelRefs P.airplanes r).mpr ⟨p, hp⟩)
    have hheap : (S.solved ((panelRefs P.airplanes).map Γ)).calculateForces.calculateStreamlines.heap r = _ :=
      (S.final_heap _).1 g r hg
    refine ⟨_, by rw [hheap], ?_⟩
    simp [hg, HorseshoeVortex.updateStrength]
  · intro q
    have e : (S.solved ((panelRefs P.airplanes).map Γ)).calculateForces.calculateStreamlines.solutionVelocity [q]
        = (S.solved ((panelRefs P.airplanes).map Γ)).solutionVelocity [q] := rfl
    rw [e, velocity_eq _ _ hlen]
    have e' : List.zipWith (fun a x => x • unit a q) (S.solved ((panelRefs P.airplanes).map Γ)).slots
        (S.solved ((panelRefs P.airplanes).map Γ)).strengths
        = (panelRefs P.airplanes).map fun r => Γ r • panelUnit P r q := by
      have := zipWith_map_self (panelRefs P.airplanes) (fun r => slotOf S.airplanes r (S.panelVortex r)) Γ
        (fun a x => x • unit a q)
      exact this
    simp only [List.map_cons, List.map_nil, e']
    rfl

theorem run_of_solve {P : SteadyProblem} (hm : ∀ a ∈ P.airplanes, a.Made) (heap : PanelHeap) (loads : List AirplaneLoads)
    {x : List ℝ}
    (h : linalgSolve ((panelRefs P.airplanes).map fun i => (panelRefs P.airplanes).map fun j => coefficient P i j)
      ((panelRefs P.airplanes).map (rhs P)) = .ok x) : ∃ s, (create P heap loads).run = .ok s := by
  obtain ⟨e1, e2⟩ := system_eq P hm heap loads
  rw [run_eq _ (counted_of_made hm) (by simp [create]), e1, e2, h]
  exact ⟨_, rfl⟩

end HorseshoeSolver

section

variable {P P' : SteadyProblem} {M : M3} {t : V3} {sw : ℕ → ℕ → Bool} {c k : ℝ} {ρ ω : ℕ → ℕ → ℕ}

namespace SimilarLattices

theorem span (hs : SimilarLattices P P' M t sw c k ρ ω) {r : PanelRef} {p : Panel} (hp : panelAt P.airplanes r = some p) :
    ((wingAt P'.airplanes (imageRef P.airplanes sw ρ ω r)).map (·.span)).getD 0
      = ((wingAt P.airplanes r).map (·.span)).getD 0 := by
  obtain ⟨W, hW⟩ := SimilarWings.wingAt_of_panel hp
  obtain ⟨W', hW', h, -⟩ := hs.airplanes.wing hs.made hs.made' hW
  simp [hW, hW', h]

theorem horseshoeUnit (hs : SimilarLattices P P' M t sw c k ρ ω) {r : PanelRef} {p : Panel}
    (hp : panelAt P.airplanes r = some p) (q : V3) :
    HorseshoeSolver.panelUnit P' (imageRef P.airplanes sw ρ ω r) (M.mulVec q + t)
      = orientation M (sw r.airplane r.wing) • M.mulVec (HorseshoeSolver.panelUnit P r q) := by
  obtain ⟨p', hp', himg⟩ := hs.airplanes.panel hs.made hs.made' hp
  obtain ⟨e1, e2, -⟩ := himg.points
  have hspan := hs.span hp
  have hd := hs.direction
  unfold HorseshoeSolver.panelUnit HorseshoeSolver.unit
  rw [← horseshoe_image hs.airplanes.ortho (t := t)]
  simp only [HorseshoeSolver.slotOf, HorseshoeSolver.panelVortex, HorseshoeSolver.create, HorseshoeVortex.mk',
    LineVortex.mk', geometryOf_eq hp, geometryOf_eq hp', hspan, hd, e1, e2]
  congr 2
  all_goals (cases sw r.airplane r.wing <;> simp only [if_true, if_false, Bool.false_eq_true, M3.mulVec_add, M3.mulVec_smul] <;> abel)

theorem normal (hs : SimilarLattices P P' M t sw c k ρ ω) {r : PanelRef} {p : Panel}
    (hp : panelAt P.airplanes r = some p) :
    (geometryOf P'.airplanes (imageRef P.airplanes sw ρ ω r)).collocationPoint
        = M.mulVec (geometryOf P.airplanes r).collocationPoint + t ∧
    (geometryOf P'.airplanes (imageRef P.airplanes sw ρ ω r)).unitNormal
        = orientation M (sw r.airplane r.wing) • M.mulVec (geometryOf P.airplanes r).unitNormal := by
  obtain ⟨p', hp', himg⟩ := hs.airplanes.panel hs.made hs.made' hp
  rw [geometryOf_eq hp, geometryOf_eq hp']
  exact ⟨himg.points.2.2, himg.normal hs.airplanes.ortho⟩

/-- Sums over the panels of both problems. -/
theorem sum_panels (hs : SimilarLattices P P' M t sw c k ρ ω) (f g : PanelRef → V3)
    (h : ∀ r p, panelAt P.airplanes r = some p → g (imageRef P.airplanes sw ρ ω r) = c • M.mulVec (f r)) :
    ((panelRefs P'.airplanes).map g).sum = c • M.mulVec ((panelRefs P.airplanes).map f).sum := by
  rw [((hs.airplanes.perm hs.made hs.made').map g).sum_eq, List.map_map, M3.mulVec_sum, List.smul_sum]
  simp only [List.map_map]
  congr 1
  apply List.map_congr_left
  intro r hr
  obtain ⟨p, hp⟩ := (mem_panelRefs _ _).mp hr
  exact h r p hp

end SimilarLattices

namespace SimilarFlows

variable {ρ : ℕ → ℕ}

/-- The panels of an airplane and those of its image. -/
theorem own_perm (hs : SimilarFlows P P' M t sw c k ρ ω) {a : ℕ} (ha : a < P.airplanes.length) :
    ((panelRefs P'.airplanes).filter fun r => r.airplane = ρ a).Perm
      (((panelRefs P.airplanes).filter fun r => r.airplane = a).map (imageRef P.airplanes sw (fun a _ => ρ a) ω)) := by
  refine ((hs.airplanes.similarWings.perm hs.made hs.made').filter _).trans ?_
  rw [List.filter_map]
  apply List.Perm.of_eq
  congr 1
  apply List.filter_congr
  intro r hr
  obtain ⟨p, hp⟩ := (mem_panelRefs _ _).mp hr
  obtain ⟨A, w, hA, -, -⟩ := panelAt_cell hp
  simp only [Function.comp, imageRef]
  have : ρ r.airplane = ρ a ↔ r.airplane = a :=
    ⟨fun e => hs.airplanes.injective _ _ (List.getElem?_eq_some_iff.mp hA).1 ha e, fun e => by rw [e]⟩
  simp [this]

/-- Total loads of an airplane and of its image, from the loads of the panels. `N` is the map of the wind axes. -/
theorem totals (hs : SimilarFlows P P' M t sw c k ρ ω) {N : M3}
    (hN : P'.operatingPoint.rotationWindToGeometry.transpose.mul M
      = N.mul P.operatingPoint.rotationWindToGeometry.transpose) {a : ℕ} (ha : a < P.airplanes.length)
    (e : ℝ) (f f' : PanelRef → V3)
    (hf : ∀ r p, panelAt P.airplanes r = some p → f' (imageRef P.airplanes sw (fun a _ => ρ a) ω r) = e • M.mulVec (f r)) :
    (((panelRefs P'.airplanes).filter fun r => r.airplane = ρ a).map fun r =>
        P'.operatingPoint.rotationWindToGeometry.transpose.mulVec (f' r)).sum
      = e • N.mulVec (((panelRefs P.airplanes).filter fun r => r.airplane = a).map fun r =>
        P.operatingPoint.rotationWindToGeometry.transpose.mulVec (f r)).sum := by
  rw [((hs.own_perm ha).map _).sum_eq, List.map_map, M3.mulVec_sum, List.smul_sum]
  simp only [List.map_map]
  congr 1
  apply List.map_congr_left
  intro r hr
  obtain ⟨p, hp⟩ := (mem_panelRefs _ _).mp (List.mem_filter.mp hr).1
  simp only [Function.comp]
  rw [hf r p hp, M3.mulVec_smul, ← M3.mul_mulVec, ← M3.mul_mulVec, hN]

/-- Total moments, when the moment of each panel is also moved by `d`. -/
theorem moments (hs : SimilarFlows P P' M t sw c k ρ ω) {N : M3}
    (hN : P'.operatingPoint.rotationWindToGeometry.transpose.mul M
      = N.mul P.operatingPoint.rotationWindToGeometry.transpose) {a : ℕ} (ha : a < P.airplanes.length)
    (e : ℝ) (d : V3) (f f' g' : PanelRef → V3)
    (hf : ∀ r p, panelAt P.airplanes r = some p → r.airplane = a →
      f' (imageRef P.airplanes sw (fun a _ => ρ a) ω r) = e • M.mulVec (f r) + d.cross (g' (imageRef P.airplanes sw (fun a _ => ρ a) ω r))) :
    (((panelRefs P'.airplanes).filter fun r => r.airplane = ρ a).map fun r =>
        P'.operatingPoint.rotationWindToGeometry.transpose.mulVec (f' r)).sum
      = e • N.mulVec (((panelRefs P.airplanes).filter fun r => r.airplane = a).map fun r =>
        P.operatingPoint.rotationWindToGeometry.transpose.mulVec (f r)).sum
        + (P'.operatingPoint.rotationWindToGeometry.transpose.mulVec d).cross
          (((panelRefs P'.airplanes).filter fun r => r.airplane = ρ a).map fun r =>
            P'.operatingPoint.rotationWindToGeometry.transpose.mulVec (g' r)).sum := by
  have hrot := (C01_rotation_is_proper P'.operatingPoint).transpose
  have hsum : ∀ (l : List PanelRef) (h : PanelRef → V3) (x : V3),
      x.cross (l.map h).sum = (l.map fun r => x.cross (h r)).sum := by
    intro l h x
    induction l with
    | nil => ext <;> simp [V3.cross]
    | cons r l ih => simp [V3.cross_add, ih]
  rw [hsum, ((hs.own_perm ha).map _).sum_eq, ((hs.own_perm ha).map
    (fun r => (P'.operatingPoint.rotationWindToGeometry.transpose.mulVec d).cross
      (P'.operatingPoint.rotationWindToGeometry.transpose.mulVec (g' r)))).sum_eq, List.map_map, List.map_map,
    M3.mulVec_sum, List.smul_sum, List.map_map, List.map_map, ← List.sum_map_add]
  have hN' : ∀ v, P'.operatingPoint.rotationWindToGeometry.transpose.mulVec (M.mulVec v)
      = N.mulVec (P.operatingPoint.rotationWindToGeometry.transpose.mulVec v) := by
    intro v
    rw [← M3.mul_mulVec, ← M3.mul_mulVec, hN]
  congr 1
  apply List.map_congr_left
  intro r hr
  obtain ⟨hr1, hr2⟩ := List.mem_filter.mp hr
  obtain ⟨p, hp⟩ := (mem_panelRefs _ _).mp hr1
  simp only [Function.comp]
  rw [hf r p hp (by simpa using hr2), M3.mulVec_add, M3.mulVec_smul, hN', ← hrot.cross]

end SimilarFlows

/-- Runs of the horseshoe solver on similar problems. -/
theorem horseshoe_similar (hs : SimilarLattices P P' M t sw c k ρ ω) {heap : PanelHeap} {loads : List AirplaneLoads}
    {s : HorseshoeSolver} (h : (HorseshoeSolver.create P heap loads).run = .ok s) (heap' : PanelHeap)
    (loads' : List AirplaneLoads) :
    ∃ s', (HorseshoeSolver.create P' heap' loads').run = .ok s' ∧
      (∀ q, ∃ u, s.solutionVelocity [q] = [u] ∧ s'.solutionVelocity [M.mulVec q + t] = [c • M.mulVec u]) ∧
      (∀ r p, panelAt P.airplanes r = some p → ∃ v v' L L', (s.heap r).horseshoe = some v ∧
        (s'.heap (imageRef P.airplanes sw ρ ω r)).horseshoe = some v' ∧ v'.strength = c * orientation M (sw r.airplane r.wing) * v.strength ∧
        (s.heap r).loads = some L ∧ (s'.heap (imageRef P.airplanes sw ρ ω r)).loads = some L' ∧
        L'.forceGeometry = (k * c ^ 2) • M.mulVec L.forceGeometry ∧
        ∀ A A', P.airplanes[r.airplane]? = some A → P'.airplanes[ρ r.airplane r.wing]? = some A' →
          L'.momentGeometry = (M.det * (k * c ^ 2)) • M.mulVec L.momentGeometry
            + (M.mulVec A.xyzRef + t - A'.xyzRef).cross L'.forceGeometry) := by
  obtain ⟨Γ, hΓ, hst, hv⟩ := HorseshoeSolver.run_values hs.made h
  obtain ⟨Γ₁, hΓ₁, hsc⟩ := linalgSolve_similar (panelRefs_nodup P'.airplanes) (imageRef P.airplanes sw ρ ω)
    (hs.airplanes.perm hs.made hs.made') (HorseshoeSolver.coefficient P) (HorseshoeSolver.coefficient P')
    (HorseshoeSolver.rhs P) (HorseshoeSolver.rhs P')
    (fun r => orientation M (sw r.airplane r.wing)) c hs.nonzero (fun r => orientation_sq hs.airplanes.ortho _)
    (by
      intro i hi j hj
      obtain ⟨p, hp⟩ := (mem_panelRefs _ _).mp hi
      obtain ⟨q, hq⟩ := (mem_panelRefs _ _).mp hj
      unfold HorseshoeSolver.coefficient
      rw [(hs.normal hp).1, (hs.normal hp).2, hs.horseshoeUnit hq, V3.smul_dot, V3.dot_smul, hs.airplanes.ortho.dot]
      ring)
    (by
      intro i hi
      obtain ⟨p, hp⟩ := (mem_panelRefs _ _).mp hi
      unfold HorseshoeSolver.rhs
      rw [(hs.normal hp).2, hs.velocity, V3.smul_dot, V3.dot_smul, hs.airplanes.ortho.dot]
      ring) Γ hΓ
  obtain ⟨s', hs'⟩ := HorseshoeSolver.run_of_solve hs.made' heap' loads' hΓ₁
  obtain ⟨Γ', hΓ', hst', hv'⟩ := HorseshoeSolver.run_values hs.made' hs'
  have hsc' : ∀ r p, panelAt P.airplanes r = some p → Γ' (imageRef P.airplanes sw ρ ω r)
      = c * orientation M (sw r.airplane r.wing) * Γ r := by
    intro r p hp
    have hr := (mem_panelRefs P.airplanes r).mpr ⟨p, hp⟩
    rw [hΓ₁] at hΓ'
    have hmem := (hs.airplanes.perm hs.made hs.made').mem_iff.mpr (List.mem_map_of_mem hr)
    rw [← map_inj_left (Except.ok.inj hΓ') _ hmem]
    exact hsc r hr
  have hvel : ∀ q, ∃ u, s.solutionVelocity [q] = [u] ∧ s'.solutionVelocity [M.mulVec q + t] = [c • M.mulVec u] := by
    intro q
    refine ⟨_, hv q, ?_⟩
    rw [hv', hs.sum_panels (fun r => Γ r • HorseshoeSolver.panelUnit P r q), hs.velocity, M3.mulVec_add, smul_add]
    intro r p hp
    rw [hsc' r p hp, hs.horseshoeUnit hp, M3.mulVec_smul]
    simp only [smul_smul]
    congr 1
    linear_combination (c * Γ r) * orientation_sq hs.airplanes.ortho (sw r.airplane r.wing)
  refine ⟨s', hs', hvel, ?_⟩
  intro r p hp
  obtain ⟨p', hp', himg⟩ := hs.airplanes.panel hs.made hs.made' hp
  obtain ⟨A, w, hA, hw, -⟩ := panelAt_cell hp
  obtain ⟨A', _, hA', -⟩ := hs.airplanes.wings _ A _ w hA hw
  obtain ⟨L, v, u, h1, h2, h3, h4, h5⟩ := C35_horseshoe P hs.made heap loads s h r p A hp hA
  obtain ⟨L', v', u', g1, g2, g3, g4, g5⟩ := C35_horseshoe P' hs.made' heap' loads' s' hs'
    (imageRef P.airplanes sw ρ ω r) p' A' hp' hA'
  obtain ⟨e1, e2, -⟩ := himg.points
  have hstr : v'.strength = c * orientation M (sw r.airplane r.wing) * v.strength := by
    obtain ⟨w1, hw1, hw2⟩ := hst r p hp
    obtain ⟨w3, hw3, hw4⟩ := hst' _ p' hp'
    rw [h2] at hw1; cases hw1
    rw [g2] at hw3; cases hw3
    rw [hw2, hw4, hsc' r p hp]
  have hcen : (1 / 2 : ℝ) • (p'.frontRightVortexVertex + p'.frontLeftVortexVertex)
      = M.mulVec ((1 / 2 : ℝ) • (p.frontRightVortexVertex + p.frontLeftVortexVertex)) + t := by
    rw [e1, e2, M3.mulVec_smul, M3.mulVec_add]
    cases sw r.airplane r.wing <;> simp only [if_true, if_false, Bool.false_eq_true] <;> module
  have hvec : p'.frontLeftVortexVertex - p'.frontRightVortexVertex
      = (if sw r.airplane r.wing then (-1 : ℝ) else 1) • M.mulVec (p.frontLeftVortexVertex - p.frontRightVortexVertex) := by
    rw [e1, e2, M3.mulVec_sub]
    cases sw r.airplane r.wing <;> simp only [if_true, if_false, Bool.false_eq_true] <;> module
  have hu : u' = c • M.mulVec u := by
    obtain ⟨u₁, k1, k2⟩ := hvel ((1 / 2 : ℝ) • (p.frontRightVortexVertex + p.frontLeftVortexVertex))
    rw [h3] at k1
    rw [← hcen, g3] at k2
    have := List.cons.inj k1
    have := List.cons.inj k2
    simp_all
  have hdd := orientation_sq hs.airplanes.ortho (sw r.airplane r.wing)
  have hF : L'.forceGeometry = (k * c ^ 2) • M.mulVec L.forceGeometry := by
    rw [g4, h4, hstr, hs.density, hvec, hu]
    unfold kuttaJoukowski
    rw [V3.smul_cross, V3.cross_smul, hs.airplanes.ortho.cross, M3.mulVec_smul]
    simp only [smul_smul]
    congr 1
    unfold orientation at hdd ⊢
    linear_combination (k * c ^ 2 * P.operatingPoint.density * v.strength) * hdd
  refine ⟨v, v', L, L', h2, g2, hstr, h1, g1, hF, ?_⟩
  intro B B' hB hB'
  rw [hA] at hB
  rw [hA'] at hB'
  cases hB
  cases hB'
  rw [g5, h5, hcen]
  rw [show M.mulVec ((1 / 2 : ℝ) • (p.frontRightVortexVertex + p.frontLeftVortexVertex)) + t - A'.xyzRef
      = M.mulVec ((1 / 2 : ℝ) • (p.frontRightVortexVertex + p.frontLeftVortexVertex) - A.xyzRef)
        + (M.mulVec A.xyzRef + t - A'.xyzRef) by
    rw [M3.mulVec_sub]; abel]
  rw [V3.add_cross]
  congr 1
  rw [hF, V3.cross_smul, hs.airplanes.ortho.cross, smul_smul]
  congr 1
  ring

/-! ## The ring solver -/

namespace RingSolver

/-- The influence of one panel on another, and the freestream's. -/
noncomputable def coefficient (P : SteadyProblem) (i j : PanelRef) : ℝ :=
  ((create P).panelUnit j (geometryOf P.airplanes i).collocationPoint).dot (geometryOf P.airplanes i).unitNormal
noncomputable def rhs (P : SteadyProblem) (i : PanelRef) : ℝ :=
  -(P.operatingPoint.freestreamVelocity.dot (geometryOf P.airplanes i).unitNormal)

theorem system_eq (P : SteadyProblem) (hm : ∀ a ∈ P.airplanes, a.Made) (heap : PanelHeap) (loads : List AirplaneLoads) :
    (create P heap loads).finalInfluences
      = (panelRefs P.airplanes).map (fun i => (panelRefs P.airplanes).map fun j => coefficient P i j) ∧
    (create P heap loads).finalFreestream.map (fun x => -x) = (panelRefs P.airplanes).map (rhs P) := by
  constructor
  · rw [influences_first (create_unsolved P (counted_of_made hm) heap loads)]
    rfl
  · unfold finalFreestream freestreamInfluences finalSlots
    simp only [List.map_map]
    rfl

theorem run_values {P : SteadyProblem} (hm : ∀ a ∈ P.airplanes, a.Made) {heap : PanelHeap} {loads : List AirplaneLoads}
    {s : RingSolver} (h : (create P heap loads).run = .ok s) :
    ∃ Γ : PanelRef → ℝ,
      linalgSolve ((panelRefs P.airplanes).map fun i => (panelRefs P.airplanes).map fun j => coefficient P i j)
        ((panelRefs P.airplanes).map (rhs P)) = .ok ((panelRefs P.airplanes).map Γ) ∧
      (∀ r p, panelAt P.airplanes r = some p →
        (s.heap r).ring = some ((panelRing P.airplanes r).updateStrength (Γ r))) ∧
      (∀ q, s.solutionVelocity [q] = [((panelRefs P.airplanes).map fun r => Γ r • (create P).panelUnit r q).sum
        + P.operatingPoint.freestreamVelocity]) := by
  have hc := counted_of_made hm
  set S := create P heap loads with hS
  have hun : S.Unsolved := create_unsolved P hc heap loads
  obtain ⟨x, hx, hlen, rfl⟩ := run_result (s := S) hc (by simp [S, create]) (by simp [S, create])
    (by simp [S, create]) h
  have hlen' : x.length = (panelRefs P.airplanes).length := by rw [hlen, finalSlots_length]; rfl
  obtain ⟨Γ, rfl⟩ := exists_values (panelRefs_nodup P.airplanes) hlen'
  obtain ⟨e1, e2⟩ := system_eq P hm heap loads
  rw [← hS] at e1 e2
  rw [e1, e2] at hx
  refine ⟨Γ, hx, ?_, ?_⟩
  · intro r p hp
    obtain ⟨g, hg⟩ := List.getElem?_of_mem ((mem_panelRefs P.airplanes r).mpr ⟨p, hp⟩)
    have hheap : (S.solved ((panelRefs P.airplanes).map Γ)).calculateForces.calculateStreamlines.heap r = _ :=
      (S.final_heap _).1 g r hg
    rw [hheap]
    simp only [List.getD_eq_getElem?_getD, List.getElem?_map, hg, Option.map_some, Option.getD_some]
    rfl
  · intro q
    have e : (S.solved ((panelRefs P.airplanes).map Γ)).calculateForces.calculateStreamlines.solutionVelocity [q]
        = (S.solved ((panelRefs P.airplanes).map Γ)).solutionVelocity [q] := rfl
    rw [e, velocity_eq _ _ hlen]
    simp only [List.map_cons, List.map_nil]
    have e' := trailing_velocity hun ((panelRefs P.airplanes).map Γ) q hlen
    have e'' := zipWith_map_self (panelRefs P.airplanes) id Γ (fun r x => x • S.panelUnit r q)
    rw [List.map_id] at e''
    have e3 : (List.zipWith (fun a x => x • unit a q) (S.solved ((panelRefs P.airplanes).map Γ)).slots
        (S.solved ((panelRefs P.airplanes).map Γ)).strengths).sum
        + ((S.solved ((panelRefs P.airplanes).map Γ)).trailing.map fun t => t.strength • unitT t q).sum
        = ((panelRefs P.airplanes).map fun r => Γ r • (create P).panelUnit r q).sum := by
      refine Eq.trans e' ?_
      exact congrArg List.sum e''
    rw [e3]
    rfl

theorem run_of_solve {P : SteadyProblem} (hm : ∀ a ∈ P.airplanes, a.Made) (heap : PanelHeap) (loads : List AirplaneLoads)
    {x : List ℝ}
    (h : linalgSolve ((panelRefs P.airplanes).map fun i => (panelRefs P.airplanes).map fun j => coefficient P i j)
      ((panelRefs P.airplanes).map (rhs P)) = .ok x) : ∃ s, (create P heap loads).run = .ok s := by
  obtain ⟨e1, e2⟩ := system_eq P hm heap loads
  rw [run_eq _ (counted_of_made hm) (by simp [create]) (by simp [create]), e1, e2, h]
  exact ⟨_, rfl⟩

end RingSolver

namespace SimilarLattices

theorem ringBack (hs : SimilarLattices P P' M t sw c k ρ ω) {r : PanelRef} {p : Panel}
    (hp : panelAt P.airplanes r = some p) :
    RingSolver.backLeftVertex P'.airplanes (imageRef P.airplanes sw ρ ω r)
      = M.mulVec (if sw r.airplane r.wing then RingSolver.backRightVertex P.airplanes r else RingSolver.backLeftVertex P.airplanes r) + t ∧
    RingSolver.backRightVertex P'.airplanes (imageRef P.airplanes sw ρ ω r)
      = M.mulVec (if sw r.airplane r.wing then RingSolver.backLeftVertex P.airplanes r else RingSolver.backRightVertex P.airplanes r) + t := by
  obtain ⟨p', hp', himg⟩ := hs.airplanes.panel hs.made hs.made' hp
  have hte := hs.airplanes.below hs.made hs.made' hp hp'
  obtain ⟨e1, e2, -⟩ := himg.points
  unfold RingSolver.backLeftVertex RingSolver.backRightVertex
  simp only [geometryOf_eq hp, geometryOf_eq hp', hte]
  by_cases hb : p.isTrailingEdge
  · simp only [hb, if_true, e1, e2]
    obtain ⟨h1, h2, h3, h4⟩ := himg
    rw [h1, h2, h3, h4]
    cases sw r.airplane r.wing <;> simp only [if_true, if_false, Bool.false_eq_true, M3.mulVec_add, M3.mulVec_sub] <;>
      constructor <;> abel
  · simp only [hb, Bool.false_eq_true, if_false]
    obtain ⟨q, hq⟩ := Option.ne_none_iff_exists'.mp (fun e => hb ((made_flags hs.made hp).trailing.mpr e))
    obtain ⟨q', hq', himg'⟩ := hs.airplanes.panel hs.made hs.made' hq
    have hq2 : panelAt P'.airplanes { imageRef P.airplanes sw ρ ω r with row := (imageRef P.airplanes sw ρ ω r).row + 1 }
        = some q' := hq'
    rw [geometryOf_eq hq, geometryOf_eq hq2]
    exact ⟨himg'.points.1, himg'.points.2.1⟩

theorem ring (hs : SimilarLattices P P' M t sw c k ρ ω) {r : PanelRef} {p : Panel}
    (hp : panelAt P.airplanes r = some p) :
    let v := RingSolver.panelRing P.airplanes r
    let v' := RingSolver.panelRing P'.airplanes (imageRef P.airplanes sw ρ ω r)
    v'.frontLeft = M.mulVec (if sw r.airplane r.wing then v.frontRight else v.frontLeft) + t ∧
    v'.frontRight = M.mulVec (if sw r.airplane r.wing then v.frontLeft else v.frontRight) + t ∧
    v'.backLeft = M.mulVec (if sw r.airplane r.wing then v.backRight else v.backLeft) + t ∧
    v'.backRight = M.mulVec (if sw r.airplane r.wing then v.backLeft else v.backRight) + t := by
  obtain ⟨p', hp', himg⟩ := hs.airplanes.panel hs.made hs.made' hp
  obtain ⟨e1, e2, -⟩ := himg.points
  obtain ⟨e3, e4⟩ := hs.ringBack hp
  simp only [RingSolver.panelRing, RingVortex.mk', geometryOf_eq hp, geometryOf_eq hp']
  exact ⟨e1, e2, e3, e4⟩

theorem ringUnit (hs : SimilarLattices P P' M t sw c k ρ ω) {r : PanelRef} {p : Panel}
    (hp : panelAt P.airplanes r = some p) (q : V3) :
    (RingSolver.create P').panelUnit (imageRef P.airplanes sw ρ ω r) (M.mulVec q + t)
      = orientation M (sw r.airplane r.wing) • M.mulVec ((RingSolver.create P).panelUnit r q) := by
  obtain ⟨p', hp', himg⟩ := hs.airplanes.panel hs.made hs.made' hp
  have hte := hs.airplanes.below hs.made hs.made' hp hp'
  obtain ⟨e1, e2, e3, e4⟩ := hs.ring hp
  obtain ⟨e5, e6⟩ := hs.ringBack hp
  have hspan := hs.span hp
  have hd := hs.direction
  unfold RingSolver.panelUnit
  rw [M3.mulVec_add, smul_add, M3.mulVec_smul, smul_comm (orientation M _)]
  congr 1
  · unfold RingSolver.unit
    rw [← ring_image hs.airplanes.ortho (t := t)]
    have hA : (RingSolver.create P').airplanes = P'.airplanes := rfl
    have hB : (RingSolver.create P).airplanes = P.airplanes := rfl
    rw [hA, hB]
    have g : ∀ br fr fl bl br' fr' fl' bl' x : V3, br = br' → fr = fr' → fl = fl' → bl = bl' →
        unitVelocity (ringLegs br fr fl bl) x = unitVelocity (ringLegs br' fr' fl' bl') x := by
      rintro _ _ _ _ _ _ _ _ _ rfl rfl rfl rfl; rfl
    exact g _ _ _ _ _ _ _ _ _ e4 e2 e1 e3
  · unfold RingSolver.firstTrailing
    have hg : (geometryOf (RingSolver.create P').airplanes (imageRef P.airplanes sw ρ ω r)).isTrailingEdge
        = (geometryOf (RingSolver.create P).airplanes r).isTrailingEdge := by
      have hA : (RingSolver.create P').airplanes = P'.airplanes := rfl
      have hB : (RingSolver.create P).airplanes = P.airplanes := rfl
      rw [hA, hB, geometryOf_eq hp, geometryOf_eq hp', hte]
    rw [hg]
    by_cases hb : (geometryOf (RingSolver.create P).airplanes r).isTrailingEdge
    · rw [if_pos hb, if_pos hb]
      simp only [RingSolver.trailingSlot, one_smul]
      unfold RingSolver.unitT
      rw [← horseshoe_image hs.airplanes.ortho (t := t)]
      simp only [RingSolver.panelHorseshoe, RingSolver.create, HorseshoeVortex.mk', LineVortex.mk', hspan, hd, e5, e6]
      congr 2
      all_goals (cases sw r.airplane r.wing <;> simp only [if_true, if_false, Bool.false_eq_true, M3.mulVec_add, M3.mulVec_smul] <;> abel)
    · rw [if_neg hb, if_neg hb]
      have h0 : ∀ x, RingSolver.unitT {} x = 0 := fun x => RingSolver.unitT_empty 0 x
      simp

/-- Strengths next to a panel and next to its image. -/
theorem nets (hs : SimilarLattices P P' M t sw c k ρ ω) {h h' : PanelHeap}
    (hst : ∀ r p, panelAt P.airplanes r = some p →
      strengthAt P'.airplanes h' (imageRef P.airplanes sw ρ ω r)
        = c * orientation M (sw r.airplane r.wing) * strengthAt P.airplanes h r) {r : PanelRef}
    {p : Panel} (hp : panelAt P.airplanes r = some p) :
    netFront P'.airplanes h' (imageRef P.airplanes sw ρ ω r)
      = c * orientation M (sw r.airplane r.wing) * netFront P.airplanes h r ∧
    netLeft P'.airplanes h' (imageRef P.airplanes sw ρ ω r)
      = c * orientation M (sw r.airplane r.wing) * (if sw r.airplane r.wing then netRight P.airplanes h r else netLeft P.airplanes h r) ∧
    netRight P'.airplanes h' (imageRef P.airplanes sw ρ ω r)
      = c * orientation M (sw r.airplane r.wing) * (if sw r.airplane r.wing then netLeft P.airplanes h r else netRight P.airplanes h r) := by
  obtain ⟨W, hW⟩ := SimilarWings.wingAt_of_panel hp
  obtain ⟨W', hW', -, h1, h2, -⟩ := hs.airplanes.wing hs.made hs.made' hW
  obtain ⟨hi, hj⟩ := (h1 r.row r.col).mp ⟨p, hp⟩
  set σ := imageRef P.airplanes sw ρ ω with hσ
  set d := c * orientation M (sw r.airplane r.wing) with hd
  have hcol : (σ r).col = if sw r.airplane r.wing then W.numSpanwisePanels - 1 - r.col else r.col := SimilarWings.imageRef_col hW
  have hrow : (σ r).row = r.row := rfl
  -- the panel at column j of the same row
  have hat : ∀ j, j < W.numSpanwisePanels →
      strengthAt P'.airplanes h' { σ r with col := if sw r.airplane r.wing then W.numSpanwisePanels - 1 - j else j }
        = d * strengthAt P.airplanes h { r with col := j } := by
    intro j hj'
    obtain ⟨q, hq⟩ := (h1 r.row j).mpr ⟨hi, hj'⟩
    have hq' : panelAt P.airplanes { r with col := j } = some q := hq
    have e := hst _ q hq'
    have hW2 : wingAt P.airplanes { r with col := j } = some W := hW
    have e2 := SimilarWings.imageRef_col (sw := sw) (ρ := ρ) (ω := ω) hW2
    have e3 : σ { r with col := j } = { σ r with col := (σ { r with col := j }).col } := rfl
    have e2' : (σ { r with col := j }).col = if sw r.airplane r.wing then W.numSpanwisePanels - 1 - j else j := e2
    rw [← e, e3, e2']
  have hout' : ∀ j, ¬ j < W.numSpanwisePanels → strengthAt P'.airplanes h' { σ r with col := j } = 0 := by
    intro j hj'
    apply strengthAt_none
    rw [Option.eq_none_iff_forall_ne_some]
    intro q hq
    exact hj' ((h2 r.row j).mp ⟨q, hq⟩).2
  have hout : ∀ j, ¬ j < W.numSpanwisePanels → strengthAt P.airplanes h { r with col := j } = 0 := by
    intro j hj'
    apply strengthAt_none
    rw [Option.eq_none_iff_forall_ne_some]
    intro q hq
    exact hj' ((h1 r.row j).mp ⟨q, hq⟩).2
  have hself : strengthAt P'.airplanes h' (σ r) = d * strengthAt P.airplanes h r := hst r p hp
  refine ⟨?_, ?_, ?_⟩
  · unfold netFront
    rw [hself, hrow]
    by_cases h0 : r.row = 0
    · rw [if_pos h0, if_pos h0]; ring
    · rw [if_neg h0, if_neg h0]
      obtain ⟨q, hq⟩ := (h1 (r.row - 1) r.col).mpr ⟨by omega, hj⟩
      have hq' : panelAt P.airplanes { r with row := r.row - 1 } = some q := hq
      have e : strengthAt P'.airplanes h' { σ r with row := r.row - 1 }
          = d * strengthAt P.airplanes h { r with row := r.row - 1 } := hst _ q hq'
      rw [e]; ring
  · unfold netLeft netRight
    rw [hself, hcol]
    rcases Bool.eq_false_or_eq_true (sw r.airplane r.wing) with hm | hm
    rotate_left
    all_goals rw [hm] at hat ⊢
    · simp only [Bool.false_eq_true, if_false] at hat ⊢
      by_cases h0 : r.col = 0
      · rw [if_pos h0, if_pos h0]; ring
      · rw [if_neg h0, if_neg h0, hat (r.col - 1) (by omega)]; ring
    · simp only [if_true] at hat ⊢
      by_cases h0 : r.col + 1 < W.numSpanwisePanels
      · rw [if_neg (by omega)]
        have := hat (r.col + 1) h0
        rw [show W.numSpanwisePanels - 1 - (r.col + 1) = W.numSpanwisePanels - 1 - r.col - 1 by omega] at this
        rw [this]; ring
      · rw [if_pos (by omega), hout _ h0]; ring
  · unfold netLeft netRight
    rw [hself, hcol]
    rcases Bool.eq_false_or_eq_true (sw r.airplane r.wing) with hm | hm
    rotate_left
    all_goals rw [hm] at hat ⊢
    · simp only [Bool.false_eq_true, if_false] at hat ⊢
      by_cases h0 : r.col + 1 < W.numSpanwisePanels
      · rw [hat (r.col + 1) h0]; ring
      · rw [hout' _ h0, hout _ h0]; ring
    · simp only [if_true] at hat ⊢
      by_cases h0 : r.col = 0
      · rw [if_pos h0, hout' _ (by omega)]; ring
      · rw [if_neg h0]
        have := hat (r.col - 1) (by omega)
        rw [show W.numSpanwisePanels - 1 - (r.col - 1) = W.numSpanwisePanels - 1 - r.col + 1 by omega] at this
        rw [this]; ring

end SimilarLattices

/-- The force on a side of a ring and on its image. `m`: the ends are exchanged. -/
theorem legForce_image (hM : M.IsOrtho) (m : Bool) {s s' : RingSolver} {d net : ℝ} {a b f f' : V3}
    (hvel : ∀ q, ∃ u, s.solutionVelocity [q] = [u] ∧ s'.solutionVelocity [M.mulVec q + t] = [c • M.mulVec u])
    (h : s.IsLegForce d net a b f)
    (h' : s'.IsLegForce (k * d) (c * orientation M m * net) (M.mulVec (if m then b else a) + t) (M.mulVec (if m then a else b) + t) f') :
    f' = (k * c ^ 2) • M.mulVec f := by
  obtain ⟨u, hu, rfl⟩ := h
  obtain ⟨u', hu', rfl⟩ := h'
  have hcen : (1 / 2 : ℝ) • (M.mulVec (if m then b else a) + t + (M.mulVec (if m then a else b) + t))
      = M.mulVec ((1 / 2 : ℝ) • (a + b)) + t := by
    rw [M3.mulVec_smul, M3.mulVec_add]
    cases m <;> simp only [if_true, if_false, Bool.false_eq_true] <;> module
  have hvec : M.mulVec (if m then a else b) + t - (M.mulVec (if m then b else a) + t) 
      = (if m then (-1 : ℝ) else 1) • M.mulVec (b - a) := by
    rw [M3.mulVec_sub]
    cases m <;> simp only [if_true, if_false, Bool.false_eq_true] <;> module
  have hdd := orientation_sq hM m
  have hu2 : u' = c • M.mulVec u := by
    obtain ⟨u₁, k1, k2⟩ := hvel ((1 / 2 : ℝ) • (a + b))
    rw [hu] at k1
    rw [← hcen, hu'] at k2
    have := List.cons.inj k1
    have := List.cons.inj k2
    simp_all
  unfold kuttaJoukowski
  rw [hvec, hu2, V3.smul_cross, V3.cross_smul, hM.cross, M3.mulVec_smul]
  simp only [smul_smul]
  congr 1
  unfold orientation at hdd ⊢
  linear_combination (k * c ^ 2 * d * net) * hdd

/-- Runs of the ring solver on similar problems. -/
theorem ring_similar (hs : SimilarLattices P P' M t sw c k ρ ω) {heap : PanelHeap} {loads : List AirplaneLoads}
    {s : RingSolver} (h : (RingSolver.create P heap loads).run = .ok s) (heap' : PanelHeap)
    (loads' : List AirplaneLoads) :
    ∃ s', (RingSolver.create P' heap' loads').run = .ok s' ∧
      (∀ q, ∃ u, s.solutionVelocity [q] = [u] ∧ s'.solutionVelocity [M.mulVec q + t] = [c • M.mulVec u]) ∧
      (∀ r p, panelAt P.airplanes r = some p → ∃ v v' L L', (s.heap r).ring = some v ∧
        (s'.heap (imageRef P.airplanes sw ρ ω r)).ring = some v' ∧ v'.strength = c * orientation M (sw r.airplane r.wing) * v.strength ∧
        (s.heap r).loads = some L ∧ (s'.heap (imageRef P.airplanes sw ρ ω r)).loads = some L' ∧
        L'.forceGeometry = (k * c ^ 2) • M.mulVec L.forceGeometry ∧
        ∀ A A', P.airplanes[r.airplane]? = some A → P'.airplanes[ρ r.airplane r.wing]? = some A' →
          L'.momentGeometry = (M.det * (k * c ^ 2)) • M.mulVec L.momentGeometry
            + (M.mulVec A.xyzRef + t - A'.xyzRef).cross L'.forceGeometry) := by
  obtain ⟨Γ, hΓ, hst, hv⟩ := RingSolver.run_values hs.made h
  obtain ⟨Γ₁, hΓ₁, hsc⟩ := linalgSolve_similar (panelRefs_nodup P'.airplanes) (imageRef P.airplanes sw ρ ω)
    (hs.airplanes.perm hs.made hs.made') (RingSolver.coefficient P) (RingSolver.coefficient P')
    (RingSolver.rhs P) (RingSolver.rhs P')
    (fun r => orientation M (sw r.airplane r.wing)) c hs.nonzero (fun r => orientation_sq hs.airplanes.ortho _)
    (by
      intro i hi j hj
      obtain ⟨p, hp⟩ := (mem_panelRefs _ _).mp hi
      obtain ⟨q, hq⟩ := (mem_panelRefs _ _).mp hj
      unfold RingSolver.coefficient
      rw [(hs.normal hp).1, (hs.normal hp).2, hs.ringUnit hq, V3.smul_dot, V3.dot_smul, hs.airplanes.ortho.dot]
      ring)
    (by
      intro i hi
      obtain ⟨p, hp⟩ := (mem_panelRefs _ _).mp hi
      unfold RingSolver.rhs
      rw [(hs.normal hp).2, hs.velocity, V3.smul_dot, V3.dot_smul, hs.airplanes.ortho.dot]
      ring) Γ hΓ
  obtain ⟨s', hs'⟩ := RingSolver.run_of_solve hs.made' heap' loads' hΓ₁
  obtain ⟨Γ', hΓ', hst', hv'⟩ := RingSolver.run_values hs.made' hs'
  have hsc' : ∀ r p, panelAt P.airplanes r = some p → Γ' (imageRef P.airplanes sw ρ ω r)
      = c * orientation M (sw r.airplane r.wing) * Γ r := by
    intro r p hp
    have hr := (mem_panelRefs P.airplanes r).mpr ⟨p, hp⟩
    rw [hΓ₁] at hΓ'
    have hmem := (hs.airplanes.perm hs.made hs.made').mem_iff.mpr (List.mem_map_of_mem hr)
    rw [← map_inj_left (Except.ok.inj hΓ') _ hmem]
    exact hsc r hr
  have hvel : ∀ q, ∃ u, s.solutionVelocity [q] = [u] ∧ s'.solutionVelocity [M.mulVec q + t] = [c • M.mulVec u] := by
    intro q
    refine ⟨_, hv q, ?_⟩
    rw [hv', hs.sum_panels (fun r => Γ r • (RingSolver.create P).panelUnit r q), hs.velocity, M3.mulVec_add, smul_add]
    intro r p hp
    rw [hsc' r p hp, hs.ringUnit hp, M3.mulVec_smul]
    simp only [smul_smul]
    congr 1
    linear_combination (c * Γ r) * orientation_sq hs.airplanes.ortho (sw r.airplane r.wing)
  have hstr : ∀ r p, panelAt P.airplanes r = some p →
      strengthAt P'.airplanes s'.heap (imageRef P.airplanes sw ρ ω r)
        = c * orientation M (sw r.airplane r.wing) * strengthAt P.airplanes s.heap r := by
    intro r p hp
    obtain ⟨p', hp', -⟩ := hs.airplanes.panel hs.made hs.made' hp
    rw [strengthAt_some hp, strengthAt_some hp', hst r p hp, hst' _ p' hp']
    exact hsc' r p hp
  refine ⟨s', hs', hvel, ?_⟩
  intro r p hp
  obtain ⟨p', hp', himg⟩ := hs.airplanes.panel hs.made hs.made' hp
  obtain ⟨A, w, hA, hw, -⟩ := panelAt_cell hp
  obtain ⟨A', _, hA', -⟩ := hs.airplanes.wings _ A _ w hA hw
  obtain ⟨L, v, F, Lf, R, h1, h2, h3, h4, h5, h6, h7⟩ := C35_ring P hs.made heap loads s h r p A hp hA
  obtain ⟨L', v', F', Lf', R', g1, g2, g3, g4, g5, g6, g7⟩ := C35_ring P' hs.made' heap' loads' s' hs'
    (imageRef P.airplanes sw ρ ω r) p' A' hp' hA'
  obtain ⟨n1, n2, n3⟩ := hs.nets hstr hp
  obtain ⟨e1, e2, e3, e4⟩ := hs.ring hp
  have hv1 := hst r p hp
  have hv2 := hst' _ p' hp'
  rw [h2] at hv1
  rw [g2] at hv2
  cases hv1
  cases hv2
  have hM := hs.airplanes.ortho
  simp only [RingVortex.updateStrength] at h3 h4 h5 h7 g3 g4 g5 g7
  rw [hs.density] at g3 g4 g5
  rw [n1, e1, e2] at g3
  rw [n2, e1, e3] at g4
  rw [n3, e2, e4] at g5
  have hF : F' = (k * c ^ 2) • M.mulVec F := legForce_image hM _ hvel h3 g3
  have href' : ∀ x y : V3, (1 / 2 : ℝ) • (M.mulVec x + t + (M.mulVec y + t)) - A'.xyzRef
      = M.mulVec ((1 / 2 : ℝ) • (x + y) - A.xyzRef) + (M.mulVec A.xyzRef + t - A'.xyzRef) := by
    intro x y
    rw [M3.mulVec_sub, M3.mulVec_smul, M3.mulVec_add]
    module
  have hcross : ∀ x f : V3, (M.mulVec x).cross ((k * c ^ 2) • M.mulVec f)
      = (M.det * (k * c ^ 2)) • M.mulVec (x.cross f) := by
    intro x f
    rw [V3.cross_smul, hM.cross, smul_smul]
    congr 1
    ring
  refine ⟨_, _, L, L', h2, g2, hsc' r p hp, h1, g1, ?_⟩
  suffices hgoal : L'.forceGeometry = (k * c ^ 2) • M.mulVec L.forceGeometry ∧
      L'.momentGeometry = (M.det * (k * c ^ 2)) • M.mulVec L.momentGeometry
        + (M.mulVec A.xyzRef + t - A'.xyzRef).cross L'.forceGeometry by
    refine ⟨hgoal.1, fun B B' hB hB' => ?_⟩
    rw [hA] at hB
    rw [hA'] at hB'
    cases hB
    cases hB'
    exact hgoal.2
  rw [g6, h6, g7, h7, e1, e2, e3, e4]
  simp only [href']
  generalize M.mulVec A.xyzRef + t - A'.xyzRef = d
  rcases Bool.eq_false_or_eq_true (sw r.airplane r.wing) with hm | hm
  rotate_left
  all_goals rw [hm] at g4 g5 ⊢
  · simp only [Bool.false_eq_true, if_false] at g4 g5 ⊢
    have hL : Lf' = (k * c ^ 2) • M.mulVec Lf := legForce_image hM false hvel h4 g4
    have hR : R' = (k * c ^ 2) • M.mulVec R := legForce_image hM false hvel h5 g5
    rw [hF, hL, hR]
    refine ⟨by simp only [M3.mulVec_add, smul_add], ?_⟩
    simp only [V3.add_cross, hcross, M3.mulVec_add, smul_add, V3.cross_add]
    abel
  · simp only [if_true] at g4 g5 ⊢
    have hL : Lf' = (k * c ^ 2) • M.mulVec R := legForce_image hM true hvel h5 g4
    have hR : R' = (k * c ^ 2) • M.mulVec Lf := legForce_image hM true hvel h4 g5
    rw [hF, hL, hR]
    refine ⟨by simp only [M3.mulVec_add, smul_add]; abel, ?_⟩
    set v := RingSolver.panelRing P.airplanes r
    rw [add_comm v.frontLeft v.frontRight, add_comm v.frontRight v.backRight, add_comm v.backLeft v.frontLeft]
    simp only [V3.add_cross, hcross, M3.mulVec_add, smul_add, V3.cross_add]
    abel

end

end Ptera
