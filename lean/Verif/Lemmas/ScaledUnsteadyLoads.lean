import Verif.Lemmas.ScaledUnsteady

/-! Helper lemmas: loads of unsteady runs in another unit of length. -/

namespace Ptera

open UnsteadySolver

variable {ℓ c : ℝ} {p p' : UnsteadyProblem} {pres : Bool} {s s₁ z z₁ : UnsteadySolver} {st sm zt zm : ℕ → UnsteadySolver}

theorem Panel.scale_area (hℓ : 0 < ℓ) (q : Panel) : (q.scale ℓ).area = ℓ ^ 2 * q.area := by
  have hc : (q.scale ℓ).crossDiagonals = (ℓ * ℓ) • q.crossDiagonals := by
    simp only [Panel.crossDiagonals, Panel.firstDiagonal, Panel.secondDiagonal, Panel.scale, ← smul_sub, V3.smul_cross,
      V3.cross_smul, smul_smul]
  unfold Panel.area
  rw [hc, V3.norm_smul, abs_of_pos (mul_pos hℓ hℓ)]
  ring

namespace ScaledProblem

theorem panel (hs : ScaledProblem p p' ℓ c) {k : ℕ} (hk : k < p.numSteps) {r : PanelRef} {q : Panel}
    (hq : panelAt (p.airplanesAt k) r = some q) : panelAt (p'.airplanesAt k) r = some (q.scale ℓ) := by
  rw [hs.airplanes k hk, panelAt_scale, hq]; rfl

theorem relative (hs : ScaledProblem p p' ℓ c) (h : Trace p pres s s₁ st sm) (h' : Trace p' pres z z₁ zt zm)
    (hcut : ∀ k < p.numSteps, ∀ l q, IsUnsteadyFilament s₁ k l → IsUnsteadyEvaluated s₁ pres k q → SameCutOff ℓ l q)
    {k : ℕ} (hk : k < p.numSteps) {r : PanelRef} (hr : r ∈ panelRefs (p.airplanesAt k)) (mid : RingVortex → V3)
    (hmid : ∀ v : RingVortex, ∀ g, mid (v.updateStrength g) = mid v)
    (hlin : ∀ j < p.numSteps, mid (boundRing p' j r) = ℓ • mid (boundRing p j r))
    (hev : ∀ v, (s₁.panels k r).ring = some v → IsUnsteadyEvaluated s₁ pres k (mid v)) :
    relativeFlow z₁ k r mid = c • relativeFlow s₁ k r mid := by
  have hpt : ∀ j < p.numSteps, ringPoint z₁ j r mid = ℓ • ringPoint s₁ j r mid := by
    intro j hj
    have hr' := hr
    rw [panelRefs_same hs.made.regular hk hj] at hr'
    obtain ⟨g, h1, h2⟩ := (hs.steps_scaled h h' hcut j hj).2.1 r hr'
    unfold ringPoint
    rw [h1, h2]
    simp only [Option.map_some, Option.getD_some, hmid]
    exact hlin j hj
  have hf := (hs.steps_scaled h h' hcut k hk).2.2
  have he : IsUnsteadyEvaluated s₁ pres k (ringPoint s₁ k r mid) := by
    obtain ⟨g, h1, -⟩ := (hs.steps_scaled h h' hcut k hk).2.1 r hr
    have := hev _ h1
    unfold ringPoint
    rw [h1]
    exact this
  unfold relativeFlow
  rw [hpt k hk, hf _ (fun l hl => hcut k hk l _ hl he), smul_sub]
  congr 1
  unfold pointVelocity
  cases k with
  | zero => simp only [smul_zero]
  | succ k =>
    simp only
    rw [hpt _ hk, hpt k (by omega), h.final_eq.2.2.2.2.2.2, h'.final_eq.2.2.2.2.2.2, ← smul_sub, hs.rate]

theorem panel_loads (hs : ScaledProblem p p' ℓ c) {sl sl' : Bool} (hr : Reached p s) (hz : Reached p' z)
    (hrun : s.run pres sl = .ok s₁) (hrun' : z.run pres sl' = .ok z₁)
    (hcut : ∀ k < p.numSteps, ∀ l q, IsUnsteadyFilament s₁ k l → IsUnsteadyEvaluated s₁ pres k q → SameCutOff ℓ l q)
    {k : ℕ} (hk : k < p.numSteps)
    (hfirst : p.firstResultsStep ≤ (k : ℤ)) (r : PanelRef) (q : Panel) (hq : panelAt (p.airplanesAt k) r = some q) :
    ∃ L L', (s₁.panels k r).loads = some L ∧ (z₁.panels k r).loads = some L' ∧
      L'.forceGeometry = (ℓ * c) ^ 2 • L.forceGeometry ∧ L'.momentGeometry = (ℓ * (ℓ * c) ^ 2) • L.momentGeometry := by
  obtain ⟨st, sm, h⟩ := hr.trace hs.made hrun
  obtain ⟨zt, zm, h'⟩ := hz.trace hs.made' hrun'
  have hk' : k < p'.numSteps := hs.steps ▸ hk
  have hprob := h.final_eq.2.2.2.2.2.2
  obtain ⟨-, hst, -⟩ := hs.steps_scaled h h' hcut k hk
  have hmem : r ∈ panelRefs (p.airplanesAt k) := (mem_panelRefs _ _).mpr ⟨q, hq⟩
  have hstr : ∀ j < p.numSteps, ∀ r, strengthAt (p'.airplanesAt j) (z₁.panels j) r
      = ℓ * c * strengthAt (p.airplanesAt j) (s₁.panels j) r := by
    intro j hj r
    cases hp : panelAt (p.airplanesAt j) r with
    | none =>
      rw [strengthAt_none hp, strengthAt_none (by rw [hs.airplanes j hj, panelAt_scale, hp]; rfl), mul_zero]
    | some d =>
      obtain ⟨g, h1, h2⟩ := (hs.steps_scaled h h' hcut j hj).2.1 r ((mem_panelRefs _ _).mpr ⟨d, hp⟩)
      rw [strengthAt_some hp, strengthAt_some (hs.panel hj hp), h1, h2]
      rfl
  have hnets : netFront (p'.airplanesAt k) (z₁.panels k) r = ℓ * c * netFront (p.airplanesAt k) (s₁.panels k) r ∧
      netLeft (p'.airplanesAt k) (z₁.panels k) r = ℓ * c * netLeft (p.airplanesAt k) (s₁.panels k) r ∧
      netRight (p'.airplanesAt k) (z₁.panels k) r = ℓ * c * netRight (p.airplanesAt k) (s₁.panels k) r := by
    unfold netFront netLeft netRight
    simp only [hstr k hk]
    refine ⟨?_, ?_, by ring⟩ <;> split <;> ring
  obtain ⟨n1, n2, n3⟩ := hnets
  obtain ⟨A, w, hA, -, -⟩ := panelAt_cell hq
  have hA' : (p'.airplanesAt k)[r.airplane]? = some (A.scale ℓ) := by
    rw [hs.airplanes k hk, List.getElem?_map, hA]; rfl
  obtain ⟨L, v, F, Lf, R, U, h1, h2, h3, h4, h5, h6, h7, h8⟩ := C35_unsteady hs.made hr hrun k hk hfirst r q A hq hA
  obtain ⟨L', v', F', Lf', R', U', g1, g2, g3, g4, g5, g6, g7, g8⟩ := C35_unsteady hs.made' hz hrun' k hk'
    (by rw [hs.first]; exact hfirst) r _ _ (hs.panel hk hq) hA'
  obtain ⟨g, hv1, hv2⟩ := hst r hmem
  rw [h2, Option.some.injEq] at hv1
  rw [g2, Option.some.injEq] at hv2
  have hprev : previousStrength z₁ k r = ℓ * c * previousStrength s₁ k r := by
    cases k with
    | zero => simp [previousStrength]
    | succ k =>
      simp only [previousStrength]
      rw [hprob, h'.final_eq.2.2.2.2.2.2]
      exact hstr k (by omega) r
  have hev : ∀ v, (s₁.panels k r).ring = some v → ∀ x, (x = v.frontMiddle ∨ x = v.leftMiddle ∨ x = v.rightMiddle) →
      IsUnsteadyEvaluated s₁ pres k x :=
    fun v hv x hx => Or.inl ⟨r, q, by rw [hprob]; exact hq, Or.inr ⟨by rw [hprob]; exact hfirst, v, hv, hx⟩⟩
  have hmids : ∀ j < p.numSteps, (boundRing p' j r).frontMiddle = ℓ • (boundRing p j r).frontMiddle ∧
      (boundRing p' j r).leftMiddle = ℓ • (boundRing p j r).leftMiddle ∧
      (boundRing p' j r).rightMiddle = ℓ • (boundRing p j r).rightMiddle := by
    intro j hj
    obtain ⟨e1, e2, e3, e4⟩ := hs.ring hj r
    unfold RingVortex.frontMiddle RingVortex.leftMiddle RingVortex.rightMiddle
    rw [e1, e2, e3, e4]
    refine ⟨?_, ?_, ?_⟩ <;> module
  have hfront := hs.relative h h' hcut hk hmem RingVortex.frontMiddle (fun _ _ => rfl) (fun j hj => (hmids j hj).1)
    (fun v hv => hev v hv _ (Or.inl rfl))
  have hleft := hs.relative h h' hcut hk hmem RingVortex.leftMiddle (fun _ _ => rfl) (fun j hj => (hmids j hj).2.1)
    (fun v hv => hev v hv _ (Or.inr (Or.inl rfl)))
  have hright := hs.relative h h' hcut hk hmem RingVortex.rightMiddle (fun _ _ => rfl) (fun j hj => (hmids j hj).2.2)
    (fun v hv => hev v hv _ (Or.inr (Or.inr rfl)))
  have hden : (p'.operatingPointAt k).density = (p.operatingPointAt k).density := by rw [hs.point k hk]
  have hkj : ∀ (d n : ℝ) (u x y : V3), kuttaJoukowski d (ℓ * c * n) (c • u) (ℓ • x - ℓ • y)
      = (ℓ * c) ^ 2 • kuttaJoukowski d n u (x - y) := by
    intro d n u x y
    unfold kuttaJoukowski
    rw [← smul_sub, V3.smul_cross, V3.cross_smul, smul_smul, smul_smul, smul_smul]
    congr 1
    ring
  refine ⟨L, L', h1, g1, ?_⟩
  obtain ⟨e1, e2, e3, e4⟩ := hs.ring hk r
  subst hv1 hv2
  simp only [RingVortex.updateStrength] at h3 h4 h5 h6 g3 g4 g5 g6
  have hF : F' = (ℓ * c) ^ 2 • F := by rw [g3, h3, hden, n1, hfront, e1, e2, hkj]
  have hL : Lf' = (ℓ * c) ^ 2 • Lf := by rw [g4, h4, hden, n2, hleft, e1, e3, hkj]
  have hR : R' = (ℓ * c) ^ 2 • R := by rw [g5, h5, hden, n3, hright, e2, e4, hkj]
  have hU : U' = (ℓ * c) ^ 2 • U := by
    rw [g6, h6, hden, hprev, hs.time, Panel.scale_area hs.pos, Panel.scale_normal hs.pos, smul_smul]
    congr 1
    have := hs.speed.ne'
    have := hs.pos.ne'
    rcases eq_or_ne p.deltaTime 0 with hd | hd
    · simp [hd]
    · field_simp
  have hm : ∀ (P : UnsteadyProblem) g' (f : RingVortex → V3), (∀ v : RingVortex, ∀ g, f (v.updateStrength g) = f v) →
      f ((boundRing P k r).updateStrength g') = f (boundRing P k r) := fun P g' f hf => hf _ _
  rw [g7, g8, h7, h8, hF, hL, hR, hU]
  refine ⟨by simp only [smul_add], ?_⟩
  simp only [hm _ _ RingVortex.frontMiddle (fun _ _ => rfl), hm _ _ RingVortex.leftMiddle (fun _ _ => rfl),
    hm _ _ RingVortex.rightMiddle (fun _ _ => rfl), (hmids k hk).1, (hmids k hk).2.1, (hmids k hk).2.2, Airplane.scale,
    (Panel.scale_points q).2.2, ← smul_sub, V3.cross_smul, V3.smul_cross, smul_smul, smul_add]
  simp only [mul_comm ℓ ((ℓ * c) ^ 2)]

theorem IsCoefficients_units {op op' : OperatingPoint} {A : Airplane} {L L' : AirplaneLoads} (hℓ : 0 < ℓ) (hc : 0 < c)
    (h : IsCoefficients op A L) (h' : IsCoefficients op' (A.scale ℓ) L') (hd : op'.density = op.density)
    (hv : op'.velocity = c * op.velocity) (hf : L'.forceWind = (ℓ * c) ^ 2 • L.forceWind)
    (hm : L'.momentWind = (ℓ * (ℓ * c) ^ 2) • L.momentWind) :
    L'.forceCoefficients = L.forceCoefficients ∧ L'.momentCoefficients = L.momentCoefficients := by
  obtain ⟨a1, a2⟩ := h
  obtain ⟨b1, b2⟩ := h'
  have e : (ℓ * c) ^ 2 ≠ 0 := by positivity
  have e' : ℓ * (ℓ * c) ^ 2 ≠ 0 := by positivity
  have s0 : 0.5 * op'.density * op'.velocity ^ 2 * (A.scale ℓ).sRef
      = (ℓ * c) ^ 2 * (0.5 * op.density * op.velocity ^ 2 * A.sRef) := by
    rw [hd, hv]; simp only [Airplane.scale]; ring
  have s1 : ∀ x, 0.5 * op'.density * op'.velocity ^ 2 * (A.scale ℓ).sRef * (ℓ * x)
      = (ℓ * (ℓ * c) ^ 2) * (0.5 * op.density * op.velocity ^ 2 * A.sRef * x) := by
    intro x; rw [s0]; ring
  have s2 : (A.scale ℓ).bRef = ℓ * A.bRef := rfl
  have s3 : (A.scale ℓ).cRef = ℓ * A.cRef := rfl
  simp only [s0, hf, V3.smul_x, V3.smul_y, V3.smul_z, ← mul_neg, mul_div_mul_left _ _ e] at b1
  rw [s2, s3, s1, s1] at b2
  simp only [hm, V3.smul_x, V3.smul_y, V3.smul_z, mul_div_mul_left _ _ e'] at b2
  exact ⟨b1.trans a1.symm, b2.trans a2.symm⟩

/-- All steps of the two runs correspond. -/
theorem corresponds (hs : ScaledProblem p p' ℓ c) {sl : Bool} (hr : Reached p s) (hrun : s.run pres sl = .ok s₁)
    (hcut : ∀ k < p.numSteps, ∀ l q, IsUnsteadyFilament s₁ k l → IsUnsteadyEvaluated s₁ pres k q → SameCutOff ℓ l q)
    (hz : Reached p' z) (sl' : Bool) :
    ∃ z₁, z.run pres sl' = .ok z₁ ∧ ∀ k < p.numSteps, StepScaled p ℓ c s₁ z₁ k := by
  obtain ⟨z₁, hrun'⟩ := hs.run_exists hr hrun hcut hz pres sl'
  refine ⟨z₁, hrun', ?_⟩
  intro k hk
  obtain ⟨st, sm, h⟩ := hr.trace hs.made hrun
  obtain ⟨zt, zm, h'⟩ := hz.trace hs.made' hrun'
  have hk' : k < p'.numSteps := hs.steps ▸ hk
  obtain ⟨hv, hst, hf⟩ := hs.steps_scaled h h' hcut k hk
  have hrot : (p'.operatingPointAt k).rotationWindToGeometry = (p.operatingPointAt k).rotationWindToGeometry := by
    rw [hs.point k hk]; rfl
  have hp := fun hfr r q hq => hs.panel_loads hr hz hrun hrun' hcut hk hfr r q hq
  have hair : ∀ (a : ℕ) A, (p.airplanesAt k)[a]? = some A → (p'.airplanesAt k)[a]? = some (A.scale ℓ) := by
    intro a A hA
    rw [hs.airplanes k hk, List.getElem?_map, hA]; rfl
  refine ⟨hf, ?_, ?_, ?_, ?_⟩
  · intro r d hd
    obtain ⟨g, h1, h2⟩ := hst r ((mem_panelRefs _ _).mpr ⟨d, hd⟩)
    obtain ⟨e1, e2, e3, e4⟩ := hs.ring hk r
    exact ⟨_, _, h1, h2, e1, e2, e3, e4, rfl⟩
  · intro q hq
    have hq' := hq
    rw [← hs.places hk] at hq'
    exact ⟨_, _, h.wakeRecord hk hq, h'.wakeRecord hk' hq',
      hs.place_ring hk hv (fun j hj => (hs.steps_scaled h h' hcut j (by omega)).2.1) hq⟩
  · intro hfr r q hq
    have hfr' : p'.firstResultsStep ≤ (k : ℤ) := by rw [hs.first]; exact hfr
    obtain ⟨L, L', h3, h4, h5, h6⟩ := hp hfr r q hq
    obtain ⟨A, -, hA, -⟩ := panelAt_cell hq
    obtain ⟨-, Q, -, hQ, -⟩ := C37_unsteady hs.made hr hrun k hk hfr _ A hA
    obtain ⟨-, Q', -, hQ', -⟩ := C37_unsteady hs.made' hz hrun' k hk' hfr' _ _ (hair _ A hA)
    have hmem := List.mem_filter (p := fun s : PanelRef => s.airplane = r.airplane)|>.mpr
      ⟨(mem_panelRefs _ _).mpr ⟨q, hq⟩, by simp⟩
    obtain ⟨q1, q2, q3⟩ := hQ r hmem
    obtain ⟨q1', q2', q3'⟩ := hQ' r (by rw [hs.refs hk]; exact hmem)
    rw [h3, Option.some.injEq] at q1
    rw [h4, Option.some.injEq] at q1'
    subst q1
    subst q1'
    refine ⟨_, _, h3, h4, h5, h6, ?_, ?_⟩
    · rw [q2', hrot, h5, M3.mulVec_smul, q2]
    · rw [q3', hrot, h6, M3.mulVec_smul, q3]
  · intro hfr a A hA
    have hfr' : p'.firstResultsStep ≤ (k : ℤ) := by rw [hs.first]; exact hfr
    obtain ⟨L, Q, hL, hQ, f1, f2, f3⟩ := C37_unsteady hs.made hr hrun k hk hfr _ A hA
    obtain ⟨L', Q', hL', hQ', g1, g2, g3⟩ := C37_unsteady hs.made' hz hrun' k hk' hfr' _ _ (hair _ A hA)
    rw [hs.refs hk] at hQ' g1 g2
    rw [hrot] at hQ'
    have hpan : ∀ r ∈ (panelRefs (p.airplanesAt k)).filter (fun r => r.airplane = a),
        (Q' r).forceWind = (ℓ * c) ^ 2 • (Q r).forceWind ∧ (Q' r).momentWind = (ℓ * (ℓ * c) ^ 2) • (Q r).momentWind := by
      intro r hr
      obtain ⟨q, hq⟩ := (mem_panelRefs _ _).mp (List.mem_filter.mp hr).1
      obtain ⟨K, K', h3, h4, h5, h6⟩ := hp hfr r q hq
      obtain ⟨q1, q2, q3⟩ := hQ r hr
      obtain ⟨q1', q2', q3'⟩ := hQ' r hr
      rw [h3, Option.some.injEq] at q1
      rw [h4, Option.some.injEq] at q1'
      subst q1
      subst q1'
      rw [q2, q3, q2', q3', h5, h6, M3.mulVec_smul, M3.mulVec_smul]
      exact ⟨rfl, rfl⟩
    have e1 : L'.forceWind = (ℓ * c) ^ 2 • L.forceWind := by
      rw [g1, f1, List.smul_sum, List.map_map]
      exact congrArg List.sum (List.map_congr_left fun r hr => (hpan r hr).1)
    have e2 : L'.momentWind = (ℓ * (ℓ * c) ^ 2) • L.momentWind := by
      rw [g2, f2, List.smul_sum, List.map_map]
      exact congrArg List.sum (List.map_congr_left fun r hr => (hpan r hr).2)
    obtain ⟨e3, e4⟩ := IsCoefficients_units hs.pos hs.speed (op := p.operatingPointAt k) (op' := p'.operatingPointAt k)
      f3 g3 (by rw [hs.point k hk]) (by rw [hs.point k hk]) e1 e2
    exact ⟨L, L', hL, hL', e1, e2, e3, e4⟩

end ScaledProblem

end Ptera
