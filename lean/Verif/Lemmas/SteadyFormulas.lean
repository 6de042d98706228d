import Verif.Lemmas.SimilarTotals
import Verif.Props.Attitude

/-! The results of a run of either steady solver, from the strengths of the panels. -/

namespace Ptera

/-- Velocity of the vortices of a panel with unit strength, for either solver. -/
noncomputable def methodUnit (method : SteadyMethod) (P : SteadyProblem) (r : PanelRef) (q : V3) : V3 :=
  match method with
  | .horseshoe => HorseshoeSolver.panelUnit P r q
  | .ring => (RingSolver.create P).panelUnit r q

/-- The influence of one panel on another, and the freestream's. -/
noncomputable def methodCoefficient (method : SteadyMethod) (P : SteadyProblem) (i j : PanelRef) : ℝ :=
  (methodUnit method P j (geometryOf P.airplanes i).collocationPoint).dot (geometryOf P.airplanes i).unitNormal
noncomputable def methodRhs (P : SteadyProblem) (i : PanelRef) : ℝ :=
  -(P.operatingPoint.freestreamVelocity.dot (geometryOf P.airplanes i).unitNormal)

theorem steady_values {method : SteadyMethod} {P : SteadyProblem} (hm : ∀ a ∈ P.airplanes, a.Made) {heap : PanelHeap}
    {loads : List AirplaneLoads} {R : SteadyResults} (h : steadyRun method P heap loads = .ok R) :
    ∃ Γ : PanelRef → ℝ,
      linalgSolve ((panelRefs P.airplanes).map fun i => (panelRefs P.airplanes).map fun j => methodCoefficient method P i j)
        ((panelRefs P.airplanes).map (methodRhs P)) = .ok ((panelRefs P.airplanes).map Γ) ∧
      (∀ r p, panelAt P.airplanes r = some p → R.strength r = some (Γ r)) ∧
      (∀ q, R.velocity q = ((panelRefs P.airplanes).map fun r => Γ r • methodUnit method P r q).sum
        + P.operatingPoint.freestreamVelocity) := by
  cases method with
  | horseshoe =>
    simp only [steadyRun] at h
    cases hr : (HorseshoeSolver.create P heap loads).run with
    | error e => rw [hr] at h; cases h
    | ok s =>
      rw [hr] at h
      cases h
      obtain ⟨Γ, h1, h2, h3⟩ := HorseshoeSolver.run_values hm hr
      refine ⟨Γ, h1, ?_, ?_⟩
      · intro r p hp
        obtain ⟨v, hv, e⟩ := h2 r p hp
        simp [HorseshoeSolver.results, hv, e]
      · intro q
        simp only [HorseshoeSolver.results, h3 q, List.headD_cons]
        rfl
  | ring =>
    simp only [steadyRun] at h
    cases hr : (RingSolver.create P heap loads).run with
    | error e => rw [hr] at h; cases h
    | ok s =>
      rw [hr] at h
      cases h
      obtain ⟨Γ, h1, h2, h3⟩ := RingSolver.run_values hm hr
      refine ⟨Γ, h1, ?_, ?_⟩
      · intro r p hp
        simp [RingSolver.results, h2 r p hp, RingVortex.updateStrength]
      · intro q
        simp only [RingSolver.results, h3 q, List.headD_cons]
        rfl

theorem steady_of_solve (method : SteadyMethod) {P : SteadyProblem} (hm : ∀ a ∈ P.airplanes, a.Made) (heap : PanelHeap)
    (loads : List AirplaneLoads) {x : List ℝ}
    (h : linalgSolve ((panelRefs P.airplanes).map fun i => (panelRefs P.airplanes).map fun j =>
      methodCoefficient method P i j) ((panelRefs P.airplanes).map (methodRhs P)) = .ok x) :
    ∃ R, steadyRun method P heap loads = .ok R := by
  cases method with
  | horseshoe =>
    obtain ⟨s, hs⟩ := HorseshoeSolver.run_of_solve hm heap loads h
    exact ⟨s.results, by simp only [steadyRun, hs]; rfl⟩
  | ring =>
    obtain ⟨s, hs⟩ := RingSolver.run_of_solve hm heap loads h
    exact ⟨s.results, by simp only [steadyRun, hs]; rfl⟩

open Classical in
/-- The strengths a user reads; zero where there is no panel. -/
noncomputable def SteadyResults.strengthIn (R : SteadyResults) (as : List Airplane) (r : PanelRef) : ℝ :=
  if ∃ p, panelAt as r = some p then (R.strength r).getD 0 else 0

/-- Kutta–Joukowski force on a straight filament in the flow `v`. -/
noncomputable def sideForce (density net : ℝ) (v : V3 → V3) (a b : V3) : V3 :=
  kuttaJoukowski density net (v ((1 / 2 : ℝ) • (a + b))) (b - a)

/-- Force and moment of a panel in the flow `v`, with the strengths `g`. -/
noncomputable def panelForceMoment (method : SteadyMethod) (as : List Airplane) (density : ℝ) (ref : V3) (v : V3 → V3)
    (g : PanelRef → ℝ) (r : PanelRef) : V3 × V3 :=
  let mid := fun a b : V3 => (1 / 2 : ℝ) • (a + b)
  match method with
  | .horseshoe =>
    let a := (geometryOf as r).frontRightVortexVertex
    let b := (geometryOf as r).frontLeftVortexVertex
    let f := sideForce density (g r) v a b
    (f, (mid a b - ref).cross f)
  | .ring =>
    let c := RingSolver.panelRing as r
    let F := sideForce density (g r - (if r.row = 0 then 0 else g { r with row := r.row - 1 })) v c.frontRight c.frontLeft
    let L := sideForce density (g r - (if r.col = 0 then 0 else g { r with col := r.col - 1 })) v c.frontLeft c.backLeft
    let R := sideForce density (g r - g { r with col := r.col + 1 }) v c.backRight c.frontRight
    (F + L + R, (mid c.frontRight c.frontLeft - ref).cross F + (mid c.frontLeft c.backLeft - ref).cross L
      + (mid c.backRight c.frontRight - ref).cross R)

theorem legForce_eq {s : RingSolver} {d net : ℝ} {a b f : V3} (h : s.IsLegForce d net a b f) :
    f = sideForce d net (fun q => (s.solutionVelocity [q]).headD 0) a b := by
  obtain ⟨u, hu, rfl⟩ := h
  simp only [sideForce, hu, List.headD_cons]

theorem steady_loads {method : SteadyMethod} {P : SteadyProblem} (hm : ∀ a ∈ P.airplanes, a.Made) {heap : PanelHeap}
    {loads : List AirplaneLoads} {R : SteadyResults} (h : steadyRun method P heap loads = .ok R) {r : PanelRef} {p : Panel}
    {A : Airplane} (hp : panelAt P.airplanes r = some p) (hA : P.airplanes[r.airplane]? = some A) :
    ∃ L, R.loads r = some L ∧ (L.forceGeometry, L.momentGeometry)
      = panelForceMoment method P.airplanes P.operatingPoint.density A.xyzRef R.velocity (R.strengthIn P.airplanes) r := by
  cases method with
  | horseshoe =>
    simp only [steadyRun] at h
    cases hr : (HorseshoeSolver.create P heap loads).run with
    | error e => rw [hr] at h; cases h
    | ok s =>
      rw [hr] at h
      cases h
      obtain ⟨L, v, u, h1, h2, h3, h4, h5⟩ := C35_horseshoe P hm heap loads s hr r p A hp hA
      refine ⟨L, h1, ?_⟩
      have hg : SteadyResults.strengthIn s.results P.airplanes r = v.strength := by
        unfold SteadyResults.strengthIn
        rw [if_pos ⟨p, hp⟩]
        simp [HorseshoeSolver.results, h2]
      have hf : L.forceGeometry = sideForce P.operatingPoint.density v.strength s.results.velocity
          p.frontRightVortexVertex p.frontLeftVortexVertex := by
        rw [h4]
        simp only [sideForce, HorseshoeSolver.results, h3, List.headD_cons]
      simp only [panelForceMoment, geometryOf_eq hp, hg]
      rw [h5, hf]
  | ring =>
    simp only [steadyRun] at h
    cases hr : (RingSolver.create P heap loads).run with
    | error e => rw [hr] at h; cases h
    | ok s =>
      rw [hr] at h
      cases h
      obtain ⟨L, v, f1, f2, f3, h1, h2, h3, h4, h5, h6, h7⟩ := C35_ring P hm heap loads s hr r p A hp hA
      refine ⟨L, h1, ?_⟩
      have hg : ∀ r, SteadyResults.strengthIn s.results P.airplanes r = strengthAt P.airplanes s.heap r := by
        intro r
        rfl
      obtain ⟨Γ, -, hst, -⟩ := RingSolver.run_values hm hr
      have hv := hst r p hp
      rw [h2] at hv
      cases hv
      rw [h6, h7, legForce_eq h3, legForce_eq h4, legForce_eq h5]
      simp only [panelForceMoment, hg]
      rfl

end Ptera
