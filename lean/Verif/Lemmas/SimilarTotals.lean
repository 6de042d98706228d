import Verif.Spec.SteadyResults
import Verif.Lemmas.SimilarRuns
import Verif.Props.SteadyLoads

/-! Total loads of similar problems, for either solver. -/

namespace Ptera

variable {P P' : SteadyProblem} {M N : M3} {t : V3} {sw : ℕ → ℕ → Bool} {c k : ℝ} {ρ : ℕ → ℕ} {ω : ℕ → ℕ → ℕ}

/-- The coefficients of an airplane are its loads over `q s_ref`, and `b_ref`, `c_ref`, `b_ref`. -/
def IsCoefficients (op : OperatingPoint) (A : Airplane) (L : AirplaneLoads) : Prop :=
  let q := 0.5 * op.density * op.velocity ^ 2
  L.forceCoefficients = ⟨-L.forceWind.x / (q * A.sRef), L.forceWind.y / (q * A.sRef), -L.forceWind.z / (q * A.sRef)⟩ ∧
  L.momentCoefficients = ⟨L.momentWind.x / (q * A.sRef * A.bRef), L.momentWind.y / (q * A.sRef * A.cRef),
    L.momentWind.z / (q * A.sRef * A.bRef)⟩

theorem IsCoefficients.scale {op op' : OperatingPoint} {A A' : Airplane} {L L' : AirplaneLoads}
    (h : IsCoefficients op A L) (h' : IsCoefficients op' A' L') {e : ℝ} (he : e ≠ 0)
    (hq : 0.5 * op'.density * op'.velocity ^ 2 = e * (0.5 * op.density * op.velocity ^ 2)) (h1 : A'.sRef = A.sRef)
    (h2 : A'.cRef = A.cRef) (h3 : A'.bRef = A.bRef) (hf : L'.forceWind = e • L.forceWind)
    (hm : L'.momentWind = e • L.momentWind) :
    L'.forceCoefficients = L.forceCoefficients ∧ L'.momentCoefficients = L.momentCoefficients := by
  obtain ⟨a1, a2⟩ := h
  obtain ⟨b1, b2⟩ := h'
  simp only [hq, h1, h2, h3, hf, hm, V3.smul_x, V3.smul_y, V3.smul_z, ← mul_neg] at b1 b2
  simp only [mul_assoc e] at b1 b2
  simp only [mul_div_mul_left _ _ he] at b1 b2
  exact ⟨b1.trans a1.symm, b2.trans a2.symm⟩

/-- What C37 says of a run, for either solver. -/
theorem steadyRun_totals (method : SteadyMethod) (P : SteadyProblem) (hm : ∀ a ∈ P.airplanes, a.Made)
    (heap : PanelHeap) (loads : List AirplaneLoads) (R : SteadyResults) (h : steadyRun method P heap loads = .ok R)
    (a : ℕ) (A : Airplane) (ha : P.airplanes[a]? = some A) :
    let W := P.operatingPoint.rotationWindToGeometry.transpose
    let own := (panelRefs P.airplanes).filter fun r => r.airplane = a
    ∃ (L : AirplaneLoads) (Q : PanelRef → PanelLoads), R.totals[a]? = some L ∧
      (∀ r ∈ own, R.loads r = some (Q r) ∧ (Q r).forceWind = W.mulVec (Q r).forceGeometry ∧
        (Q r).momentWind = W.mulVec (Q r).momentGeometry) ∧
      L.forceWind = (own.map fun r => (Q r).forceWind).sum ∧
      L.momentWind = (own.map fun r => (Q r).momentWind).sum ∧
      IsCoefficients P.operatingPoint A L := by
  cases method with
  | horseshoe =>
    simp only [steadyRun] at h
    cases hr : (HorseshoeSolver.create P heap loads).run with
    | error e => rw [hr] at h; cases h
    | ok s =>
      rw [hr] at h
      cases h
      exact (C37_horseshoe P hm heap loads s hr a A ha).2
  | ring =>
    simp only [steadyRun] at h
    cases hr : (RingSolver.create P heap loads).run with
    | error e => rw [hr] at h; cases h
    | ok s =>
      rw [hr] at h
      cases h
      exact (C37_ring P hm heap loads s hr a A ha).2

section

variable {ρ : ℕ → ℕ → ℕ}

/-- Runs on similar problems, for either solver, whichever airplanes the wings belong to. -/
theorem steady_similar_lattices (method : SteadyMethod) (hs : SimilarLattices P P' M t sw c k ρ ω)
    (hN : P'.operatingPoint.rotationWindToGeometry.transpose.mul M
      = N.mul P.operatingPoint.rotationWindToGeometry.transpose)
    {heap : PanelHeap} {loads : List AirplaneLoads} {R : SteadyResults}
    (h : steadyRun method P heap loads = .ok R) (heap' : PanelHeap) (loads' : List AirplaneLoads) :
    ∃ R', steadyRun method P' heap' loads' = .ok R' ∧
      (∀ q, R'.velocity (M.mulVec q + t) = c • M.mulVec (R.velocity q)) ∧
      (∀ r p, panelAt P.airplanes r = some p → ∃ g L L', R.strength r = some g ∧
        R'.strength (imageRef P.airplanes sw ρ ω r) = some (c * orientation M (sw r.airplane r.wing) * g) ∧
        R.loads r = some L ∧ R'.loads (imageRef P.airplanes sw ρ ω r) = some L' ∧
        L'.forceGeometry = (k * c ^ 2) • M.mulVec L.forceGeometry ∧
        L'.forceWind = (k * c ^ 2) • N.mulVec L.forceWind ∧
        ∀ A A', P.airplanes[r.airplane]? = some A → P'.airplanes[ρ r.airplane r.wing]? = some A' →
          L'.momentGeometry = (M.det * (k * c ^ 2)) • M.mulVec L.momentGeometry
            + (M.mulVec A.xyzRef + t - A'.xyzRef).cross L'.forceGeometry ∧
          L'.momentWind = (M.det * (k * c ^ 2)) • N.mulVec L.momentWind
            + (P'.operatingPoint.rotationWindToGeometry.transpose.mulVec (M.mulVec A.xyzRef + t - A'.xyzRef)).cross
              L'.forceWind) := by
  obtain ⟨R', hR', hv, hp⟩ : ∃ R', steadyRun method P' heap' loads' = .ok R' ∧
      (∀ q, R'.velocity (M.mulVec q + t) = c • M.mulVec (R.velocity q)) ∧
      (∀ r p, panelAt P.airplanes r = some p → ∃ g L L', R.strength r = some g ∧
        R'.strength (imageRef P.airplanes sw ρ ω r) = some (c * orientation M (sw r.airplane r.wing) * g) ∧
        R.loads r = some L ∧ R'.loads (imageRef P.airplanes sw ρ ω r) = some L' ∧
        L'.forceGeometry = (k * c ^ 2) • M.mulVec L.forceGeometry ∧
        ∀ A A', P.airplanes[r.airplane]? = some A → P'.airplanes[ρ r.airplane r.wing]? = some A' →
          L'.momentGeometry = (M.det * (k * c ^ 2)) • M.mulVec L.momentGeometry
            + (M.mulVec A.xyzRef + t - A'.xyzRef).cross L'.forceGeometry) := by
    cases method with
    | horseshoe =>
      simp only [steadyRun] at h ⊢
      cases hr : (HorseshoeSolver.create P heap loads).run with
      | error e => rw [hr] at h; cases h
      | ok s =>
        rw [hr] at h
        cases h
        obtain ⟨s', hs', hv, hp⟩ := horseshoe_similar hs hr heap' loads'
        refine ⟨s'.results, by rw [hs']; rfl, ?_, ?_⟩
        · intro q
          obtain ⟨u, h1, h2⟩ := hv q
          simp only [HorseshoeSolver.results, h1, h2, List.headD_cons]
        · intro r p hr
          obtain ⟨v, v', L, L', h1, h2, h3, h4, h5, h6, h7⟩ := hp r p hr
          exact ⟨v.strength, L, L', by simp [HorseshoeSolver.results, h1], by simp [HorseshoeSolver.results, h2, h3],
            h4, h5, h6, h7⟩
    | ring =>
      simp only [steadyRun] at h ⊢
      cases hr : (RingSolver.create P heap loads).run with
      | error e => rw [hr] at h; cases h
      | ok s =>
        rw [hr] at h
        cases h
        obtain ⟨s', hs', hv, hp⟩ := ring_similar hs hr heap' loads'
        refine ⟨s'.results, by rw [hs']; rfl, ?_, ?_⟩
        · intro q
          obtain ⟨u, h1, h2⟩ := hv q
          simp only [RingSolver.results, h1, h2, List.headD_cons]
        · intro r p hr
          obtain ⟨v, v', L, L', h1, h2, h3, h4, h5, h6, h7⟩ := hp r p hr
          exact ⟨v.strength, L, L', by simp [RingSolver.results, h1], by simp [RingSolver.results, h2, h3],
            h4, h5, h6, h7⟩
  have wind : ∀ v : V3, P'.operatingPoint.rotationWindToGeometry.transpose.mulVec (M.mulVec v)
      = N.mulVec (P.operatingPoint.rotationWindToGeometry.transpose.mulVec v) := by
    intro v
    rw [← M3.mul_mulVec, ← M3.mul_mulVec, hN]
  have hrot := (C01_rotation_is_proper P'.operatingPoint).transpose
  refine ⟨R', hR', hv, ?_⟩
  · intro r p hr
    obtain ⟨g, L, L', h1, h2, h3, h4, h5, h6⟩ := hp r p hr
    obtain ⟨A, w, hA, hw, -⟩ := panelAt_cell hr
    obtain ⟨A', _, hA', -⟩ := hs.airplanes.wings _ A _ w hA hw
    obtain ⟨-, Q, -, hQ, -⟩ := steadyRun_totals method P hs.made heap loads R h _ A hA
    obtain ⟨-, Q', -, hQ', -⟩ := steadyRun_totals method P' hs.made' heap' loads' R' hR' _ A' hA'
    obtain ⟨q1, q2, q3⟩ := hQ r (List.mem_filter.mpr ⟨(mem_panelRefs _ _).mpr ⟨p, hr⟩, by simp⟩)
    obtain ⟨p', hp', -⟩ := hs.airplanes.panel hs.made hs.made' hr
    obtain ⟨q1', q2', q3'⟩ := hQ' (imageRef P.airplanes sw ρ ω r)
      (List.mem_filter.mpr ⟨(mem_panelRefs _ _).mpr ⟨p', hp'⟩, by simp [imageRef]⟩)
    rw [h3, Option.some.injEq] at q1
    rw [h4, Option.some.injEq] at q1'
    subst q1
    subst q1'
    refine ⟨g, _, _, h1, h2, h3, h4, h5, ?_, ?_⟩
    · rw [q2', h5, M3.mulVec_smul, wind, q2]
    · intro B B' hB hB'
      refine ⟨h6 B B' hB hB', ?_⟩
      rw [q3', h6 B B' hB hB', M3.mulVec_add, M3.mulVec_smul, wind, q3, q2', ← hrot.cross]

end

/-- Runs on similar problems, for either solver, whatever the reference points. -/
theorem steady_similar_flows (method : SteadyMethod) (hs : SimilarFlows P P' M t sw c k ρ ω)
    (hN : P'.operatingPoint.rotationWindToGeometry.transpose.mul M
      = N.mul P.operatingPoint.rotationWindToGeometry.transpose)
    {heap : PanelHeap} {loads : List AirplaneLoads} {R : SteadyResults}
    (h : steadyRun method P heap loads = .ok R) (heap' : PanelHeap) (loads' : List AirplaneLoads) :
    ∃ R', steadyRun method P' heap' loads' = .ok R' ∧
      (∀ q, R'.velocity (M.mulVec q + t) = c • M.mulVec (R.velocity q)) ∧
      (∀ r p, panelAt P.airplanes r = some p → ∃ g L L', R.strength r = some g ∧
        R'.strength (imageRef P.airplanes sw (fun a _ => ρ a) ω r) = some (c * orientation M (sw r.airplane r.wing) * g) ∧
        R.loads r = some L ∧ R'.loads (imageRef P.airplanes sw (fun a _ => ρ a) ω r) = some L' ∧
        L'.forceGeometry = (k * c ^ 2) • M.mulVec L.forceGeometry ∧
        L'.forceWind = (k * c ^ 2) • N.mulVec L.forceWind ∧
        ∀ A A', P.airplanes[r.airplane]? = some A → P'.airplanes[ρ r.airplane]? = some A' →
          L'.momentGeometry = (M.det * (k * c ^ 2)) • M.mulVec L.momentGeometry
            + (M.mulVec A.xyzRef + t - A'.xyzRef).cross L'.forceGeometry ∧
          L'.momentWind = (M.det * (k * c ^ 2)) • N.mulVec L.momentWind
            + (P'.operatingPoint.rotationWindToGeometry.transpose.mulVec (M.mulVec A.xyzRef + t - A'.xyzRef)).cross
              L'.forceWind) ∧
      (∀ a A, P.airplanes[a]? = some A → ∃ A' L L', P'.airplanes[ρ a]? = some A' ∧ R.totals[a]? = some L ∧
        R'.totals[ρ a]? = some L' ∧ L'.forceWind = (k * c ^ 2) • N.mulVec L.forceWind ∧
        L'.momentWind = (M.det * (k * c ^ 2)) • N.mulVec L.momentWind
          + (P'.operatingPoint.rotationWindToGeometry.transpose.mulVec (M.mulVec A.xyzRef + t - A'.xyzRef)).cross
            L'.forceWind ∧
        IsCoefficients P.operatingPoint A L ∧ IsCoefficients P'.operatingPoint A' L') := by
  obtain ⟨R', hR', hv, hp⟩ := steady_similar_lattices method hs.lattices hN h heap' loads'
  refine ⟨R', hR', hv, hp, ?_⟩
  · intro a A hA
    obtain ⟨A', hA', -⟩ := hs.airplanes.airplanes _ _ hA
    have ha : a < P.airplanes.length := (List.getElem?_eq_some_iff.mp hA).1
    obtain ⟨L, Q, hL, hQ, f1, f2, f3⟩ := steadyRun_totals method P hs.made heap loads R h _ A hA
    obtain ⟨L', Q', hL', hQ', g1, g2, g3⟩ := steadyRun_totals method P' hs.made' heap' loads' R' hR' _ A' hA'
    have e0 : (((panelRefs P'.airplanes).filter fun r => r.airplane = ρ a).map fun r => (Q' r).forceWind)
          = ((panelRefs P'.airplanes).filter fun r => r.airplane = ρ a).map fun r =>
            P'.operatingPoint.rotationWindToGeometry.transpose.mulVec (((R'.loads r).map (·.forceGeometry)).getD 0) := by
      apply List.map_congr_left
      intro r hr
      rw [(hQ' r hr).1, (hQ' r hr).2.1]; rfl
    refine ⟨A', L, L', hA', hL, hL', ?_, ?_, f3, g3⟩
    · rw [g1, f1]
      have e1 : (((panelRefs P'.airplanes).filter fun r => r.airplane = ρ a).map fun r => (Q' r).forceWind)
          = ((panelRefs P'.airplanes).filter fun r => r.airplane = ρ a).map fun r =>
            P'.operatingPoint.rotationWindToGeometry.transpose.mulVec (((R'.loads r).map (·.forceGeometry)).getD 0) := by
        apply List.map_congr_left
        intro r hr
        rw [(hQ' r hr).1, (hQ' r hr).2.1]; rfl
      have e2 : (((panelRefs P.airplanes).filter fun r => r.airplane = a).map fun r => (Q r).forceWind)
          = ((panelRefs P.airplanes).filter fun r => r.airplane = a).map fun r =>
            P.operatingPoint.rotationWindToGeometry.transpose.mulVec (((R.loads r).map (·.forceGeometry)).getD 0) := by
        apply List.map_congr_left
        intro r hr
        rw [(hQ r hr).1, (hQ r hr).2.1]; rfl
      rw [e1, e2]
      apply hs.totals hN ha (k * c ^ 2)
      intro r p hr
      obtain ⟨g, L, L', -, -, h3, h4, h5, -⟩ := hp r p hr
      rw [h3, h4]; exact h5
    · rw [g2, f2, g1, e0]
      have e1 : (((panelRefs P'.airplanes).filter fun r => r.airplane = ρ a).map fun r => (Q' r).momentWind)
          = ((panelRefs P'.airplanes).filter fun r => r.airplane = ρ a).map fun r =>
            P'.operatingPoint.rotationWindToGeometry.transpose.mulVec (((R'.loads r).map (·.momentGeometry)).getD 0) := by
        apply List.map_congr_left
        intro r hr
        rw [(hQ' r hr).1, (hQ' r hr).2.2]; rfl
      have e2 : (((panelRefs P.airplanes).filter fun r => r.airplane = a).map fun r => (Q r).momentWind)
          = ((panelRefs P.airplanes).filter fun r => r.airplane = a).map fun r =>
            P.operatingPoint.rotationWindToGeometry.transpose.mulVec (((R.loads r).map (·.momentGeometry)).getD 0) := by
        apply List.map_congr_left
        intro r hr
        rw [(hQ r hr).1, (hQ r hr).2.2]; rfl
      rw [e1, e2]
      apply hs.moments hN ha (M.det * (k * c ^ 2))
      intro r p hr hra
      obtain ⟨g, L, L', -, -, h3, h4, -, h6⟩ := hp r p hr
      rw [h3, h4]; exact (h6.2 A A' (hra ▸ hA) (hra ▸ hA')).1

/-- Runs on similar problems, for either solver. -/
theorem steady_similar (method : SteadyMethod) (hs : SimilarProblems P P' M t sw c k ρ ω)
    (hN : P'.operatingPoint.rotationWindToGeometry.transpose.mul M
      = N.mul P.operatingPoint.rotationWindToGeometry.transpose)
    {heap : PanelHeap} {loads : List AirplaneLoads} {R : SteadyResults}
    (h : steadyRun method P heap loads = .ok R) (heap' : PanelHeap) (loads' : List AirplaneLoads) :
    ∃ R', steadyRun method P' heap' loads' = .ok R' ∧
      (∀ q, R'.velocity (M.mulVec q + t) = c • M.mulVec (R.velocity q)) ∧
      (∀ r p, panelAt P.airplanes r = some p → ∃ g L L', R.strength r = some g ∧
        R'.strength (imageRef P.airplanes sw (fun a _ => ρ a) ω r) = some (c * orientation M (sw r.airplane r.wing) * g) ∧
        R.loads r = some L ∧ R'.loads (imageRef P.airplanes sw (fun a _ => ρ a) ω r) = some L' ∧
        L'.forceGeometry = (k * c ^ 2) • M.mulVec L.forceGeometry ∧
        L'.momentGeometry = (M.det * (k * c ^ 2)) • M.mulVec L.momentGeometry ∧
        L'.forceWind = (k * c ^ 2) • N.mulVec L.forceWind ∧
        L'.momentWind = (M.det * (k * c ^ 2)) • N.mulVec L.momentWind) ∧
      (∀ a A, P.airplanes[a]? = some A → ∃ A' L L', P'.airplanes[ρ a]? = some A' ∧ R.totals[a]? = some L ∧
        R'.totals[ρ a]? = some L' ∧ L'.forceWind = (k * c ^ 2) • N.mulVec L.forceWind ∧
        L'.momentWind = (M.det * (k * c ^ 2)) • N.mulVec L.momentWind ∧
        IsCoefficients P.operatingPoint A L ∧ IsCoefficients P'.operatingPoint A' L') := by
  obtain ⟨R', h1, h2, h3, h4⟩ := steady_similar_flows method hs.flows hN h heap' loads'
  have hz : ∀ {a A A'}, P.airplanes[a]? = some A → P'.airplanes[ρ a]? = some A' →
      M.mulVec A.xyzRef + t - A'.xyzRef = 0 := by
    intro a A A' hA hA'
    rw [hs.airplanes.reference hA hA', sub_self]
  have hc : ∀ v : V3, (0 : V3).cross v = 0 := by
    intro v
    ext <;> simp [V3.cross]
  refine ⟨R', h1, h2, ?_, ?_⟩
  · intro r p hr
    obtain ⟨g, L, L', a1, a2, a3, a4, a5, a6, a7⟩ := h3 r p hr
    obtain ⟨A, w, hA, -, -⟩ := panelAt_cell hr
    obtain ⟨A', hA', -⟩ := hs.airplanes.airplanes _ A hA
    obtain ⟨b1, b2⟩ := a7 A A' hA hA'
    rw [hz hA hA', hc, add_zero] at b1
    rw [hz hA hA', M3.mulVec_zero, hc, add_zero] at b2
    exact ⟨g, L, L', a1, a2, a3, a4, a5, b1, a6, b2⟩
  · intro a A hA
    obtain ⟨A', L, L', a1, a2, a3, a4, a5, a6⟩ := h4 a A hA
    rw [hz hA a1, M3.mulVec_zero, hc, add_zero] at a5
    exact ⟨A', L, L', a1, a2, a3, a4, a5, a6⟩

end Ptera
