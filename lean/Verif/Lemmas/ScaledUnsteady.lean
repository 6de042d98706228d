import Verif.Spec.ScaledUnsteady
import Verif.Lemmas.Faster
import Verif.Lemmas.ScaledRuns

/-! Helper lemmas: unsteady runs in another unit of length. -/

namespace Ptera

open UnsteadySolver

/-- The cut-off of the filament from `a` to `b` at `q` is the same in the other unit. -/
def CutPair (ℓ : ℝ) (a b q : V3) : Prop :=
  (a - q).cross (b - q) = 0 ∨ (NearFilament (ℓ • a) (ℓ • b) (ℓ • q) ↔ NearFilament a b q)

def RingCut (ℓ : ℝ) (fr fl bl br q : V3) : Prop :=
  CutPair ℓ br fr q ∧ CutPair ℓ fr fl q ∧ CutPair ℓ fl bl q ∧ CutPair ℓ bl br q

variable {ℓ c : ℝ}

theorem coreRadius_units (hℓ : 0 < ℓ) (hc : 0 < c) (nu Γ age : ℝ) (a b a' b' : V3) :
    coreRadius (ℓ * c * nu) ⟨a', b', ℓ * c * Γ, ℓ / c * age⟩ = ℓ * coreRadius nu ⟨a, b, Γ, age⟩ := by
  unfold coreRadius
  simp only [abs_mul, abs_of_pos hc, abs_of_pos hℓ]
  have e : lamb * (ℓ * c * nu + squire * (ℓ * c * |Γ|)) * (ℓ / c * age)
      = ℓ ^ 2 * (lamb * (nu + squire * |Γ|) * age) := by
    field_simp
  rw [e, Real.sqrt_mul (sq_nonneg ℓ), Real.sqrt_sq hℓ.le]
  ring

theorem expandedEntry_units (hℓ : 0 < ℓ) (hc : 0 < c) (nu Γ age : ℝ) {a b q : V3} (h : CutPair ℓ a b q) :
    expandedEntry (ℓ * c * nu) ⟨ℓ • a, ℓ • b, ℓ * c * Γ, ℓ / c * age⟩ (ℓ • q) = c • expandedEntry nu ⟨a, b, Γ, age⟩ q := by
  rw [expandedEntry_eq, expandedEntry_eq]
  have hx : (ℓ • a - ℓ • q).cross (ℓ • b - ℓ • q) = (ℓ * ℓ) • (a - q).cross (b - q) := by
    rw [← smul_sub, ← smul_sub, V3.smul_cross, V3.cross_smul, smul_smul]
  rcases h with h | h
  · simp only [hx, h, smul_zero, ite_self]
  · have h1 : Cutoff ⟨ℓ • a, ℓ • b, ℓ * c * Γ, ℓ / c * age⟩ (ℓ • q) ↔ Cutoff ⟨a, b, Γ, age⟩ q := h
    by_cases hcut : Cutoff ⟨a, b, Γ, age⟩ q
    · rw [if_pos hcut, if_pos (h1.mpr hcut), smul_zero]
    · rw [if_neg hcut, if_neg fun h2 => hcut (h1.mp h2)]
      simp only [hx, smul_smul]
      congr 1
      simp only [kernelCoeff, coreRadius_units hℓ hc nu Γ age a b, hx]
      simp only [← smul_sub, V3.norm_smul, V3.smul_dot, V3.dot_smul, abs_of_pos hℓ, abs_of_pos (mul_pos hℓ hℓ)]
      have hne := hℓ.ne'
      generalize coreRadius nu ⟨a, b, Γ, age⟩ = R
      generalize (a - q).norm = x
      generalize (b - q).norm = y
      generalize ((a - q).cross (b - q)).norm = z
      generalize (b - a).norm = d
      generalize (a - q).dot (b - q) = e
      have e2 : ℓ * x * (ℓ * y) * ((ℓ * ℓ * z) ^ 2 + (ℓ * d) ^ 2 * (ℓ * R) ^ 2)
          = ℓ ^ 6 * (x * y * (z ^ 2 + d ^ 2 * R ^ 2)) := by ring
      rw [e2]
      generalize x * y * (z ^ 2 + d ^ 2 * R ^ 2) = D
      by_cases hD : D = 0
      · simp [hD]
      · field_simp

theorem ringInduced_units (hℓ : 0 < ℓ) (hc : 0 < c) (nu Γ age : ℝ) {fr fl bl br q : V3} (h : RingCut ℓ fr fl bl br q) :
    ringInduced (ℓ * c * nu) (ℓ • fr) (ℓ • fl) (ℓ • bl) (ℓ • br) (ℓ * c * Γ) (ℓ / c * age) (ℓ • q)
      = c • ringInduced nu fr fl bl br Γ age q := by
  obtain ⟨h1, h2, h3, h4⟩ := h
  unfold ringInduced
  rw [expandedEntry_units hℓ hc nu Γ age h1, expandedEntry_units hℓ hc nu Γ age h2, expandedEntry_units hℓ hc nu Γ age h3,
    expandedEntry_units hℓ hc nu Γ age h4]
  simp only [smul_add]

theorem RingCut.of_legs {ℓ : ℝ} {q : V3} (v : RingVortex) (g : ℝ)
    (h : ∀ l ∈ ((RingVortex.mk' v.frontLeft v.frontRight v.backLeft v.backRight g).legs), SameCutOff ℓ l q) :
    RingCut ℓ v.frontRight v.frontLeft v.backLeft v.backRight q := by
  simp only [RingVortex.legs, List.mem_cons, List.not_mem_nil, or_false, forall_eq_or_imp, forall_eq] at h
  obtain ⟨h1, h2, h3, h4⟩ := h
  exact ⟨h4, h1, h2, h3⟩

/-- The same airplanes at every step with lengths multiplied by `ℓ`, velocities by `c`. -/
structure ScaledProblem (p p' : UnsteadyProblem) (ℓ c : ℝ) : Prop where
  made : p.Made
  made' : p'.Made
  pos : 0 < ℓ
  speed : 0 < c
  steps : p'.numSteps = p.numSteps
  time : p'.deltaTime = ℓ / c * p.deltaTime
  first : p'.firstResultsStep = p.firstResultsStep
  airplanes : ∀ k < p.numSteps, p'.airplanesAt k = (p.airplanesAt k).map (Airplane.scale ℓ)
  point : ∀ k < p.numSteps, p'.operatingPointAt k = { p.operatingPointAt k with
    velocity := c * (p.operatingPointAt k).velocity, nu := ℓ * c * (p.operatingPointAt k).nu }

theorem UnsteadyProblem.Made.same {p : UnsteadyProblem} (hp : p.Made) :
    SimilarMotion p p M3.one 0 (fun _ _ => false) 1 id (fun _ => id) :=
  { made := hp, made' := hp, chordwise := hp.chordwise, steps := le_rfl, time := rfl
    similar := by
      intro k _
      exact {
        airplanes := (SimilarAirplanes.refl _).shapes
        made := hp.regular.made k
        made' := hp.regular.made k
        nonzero := one_ne_zero
        direction := by simp only [one_mulVec]
        velocity := by simp only [one_mulVec, one_smul]
        density := by simp only [_root_.one_mul] }
    nu := fun _ _ => rfl
    shared := by intro k _ a w hw; cases hw }

variable {p p' : UnsteadyProblem} {pres : Bool} {s s₁ z z₁ : UnsteadySolver} {st sm zt zm : ℕ → UnsteadySolver}

namespace ScaledProblem

theorem velocity (hs : ScaledProblem p p' ℓ c) {k : ℕ} (hk : k < p.numSteps) :
    (p'.operatingPointAt k).freestreamVelocity = c • (p.operatingPointAt k).freestreamVelocity := by
  rw [hs.point k hk]
  simp only [OperatingPoint.freestreamVelocity, smul_smul]
  rfl

theorem nu (hs : ScaledProblem p p' ℓ c) {k : ℕ} (hk : k < p.numSteps) :
    (p'.operatingPointAt k).nu = ℓ * c * (p.operatingPointAt k).nu := by
  rw [hs.point k hk]

theorem drift (hs : ScaledProblem p p' ℓ c) (u : V3) : p'.deltaTime • (c • u) = ℓ • (p.deltaTime • u) := by
  rw [hs.time, smul_smul, smul_smul]
  congr 1
  have := hs.speed.ne'
  field_simp

theorem ring (hs : ScaledProblem p p' ℓ c) {k : ℕ} (hk : k < p.numSteps) (r : PanelRef) :
    (boundRing p' k r).frontLeft = ℓ • (boundRing p k r).frontLeft ∧
    (boundRing p' k r).frontRight = ℓ • (boundRing p k r).frontRight ∧
    (boundRing p' k r).backLeft = ℓ • (boundRing p k r).backLeft ∧
    (boundRing p' k r).backRight = ℓ • (boundRing p k r).backRight := by
  have e : ∀ r, ((geometryOf (p.airplanesAt k) r).scale ℓ).isTrailingEdge = (geometryOf (p.airplanesAt k) r).isTrailingEdge :=
    fun _ => rfl
  unfold boundRing
  rw [hs.airplanes k hk, hs.velocity hk]
  simp only [UnsteadySolver.panelRing, RingVortex.mk', UnsteadySolver.backLeftVertex, UnsteadySolver.backRightVertex,
    geometryOf_scale, e, hs.drift]
  refine ⟨(Panel.scale_points _).1, (Panel.scale_points _).2.1, ?_, ?_⟩
  · split
    · rw [(Panel.scale_points _).1]
      simp only [Panel.scale]
      module
    · exact (Panel.scale_points _).1
  · split
    · rw [(Panel.scale_points _).2.1]
      simp only [Panel.scale]
      module
    · exact (Panel.scale_points _).2.1

theorem unit (hs : ScaledProblem p p' ℓ c) {k : ℕ} (hk : k < p.numSteps) (r : PanelRef) {q : V3}
    (hq : RingCut ℓ (boundRing p k r).frontRight (boundRing p k r).frontLeft (boundRing p k r).backLeft
      (boundRing p k r).backRight q) :
    unitRing p' k r (ℓ • q) = ℓ⁻¹ • unitRing p k r q := by
  obtain ⟨e1, e2, e3, e4⟩ := hs.ring hk r
  obtain ⟨h1, h2, h3, h4⟩ := hq
  unfold unitRing
  rw [e1, e2, e3, e4]
  refine unitVelocity_scaled hs.pos (ringLegs (boundRing p k r).backRight (boundRing p k r).frontRight
    (boundRing p k r).frontLeft (boundRing p k r).backLeft) q ?_
  intro l hl
  simp only [ringLegs, List.mem_cons, List.not_mem_nil, or_false] at hl
  rcases hl with rfl | rfl | rfl | rfl
  all_goals first | exact h1 | exact h2 | exact h3 | exact h4

theorem wing (hs : ScaledProblem p p' ℓ c) {k : ℕ} (hk : k < p.numSteps) (a w : ℕ) :
    p'.wing? ⟨k, a, w⟩ = (p.wing? ⟨k, a, w⟩).map (Wing.scale ℓ) := by
  unfold UnsteadyProblem.wing?
  rw [hs.airplanes k hk]
  simp only [List.getElem?_map]
  cases (p.airplanesAt k)[a]? with
  | none => rfl
  | some A => simp [Airplane.scale]

theorem chord (hs : ScaledProblem p p' ℓ c) {k : ℕ} (hk : k < p.numSteps) (a w : ℕ) :
    p'.chordOf ⟨k, a, w⟩ = p.chordOf ⟨k, a, w⟩ := by
  unfold UnsteadyProblem.chordOf
  rw [hs.wing hk]
  cases p.wing? ⟨k, a, w⟩ <;> rfl

theorem places (hs : ScaledProblem p p' ℓ c) {k : ℕ} (hk : k < p.numSteps) : wakePlaces p' k = wakePlaces p k := by
  unfold wakePlaces
  rw [hs.airplanes k hk, List.zipIdx_map, List.flatMap_map]
  congr 1
  funext a
  simp only [Airplane.scale, Prod.map]
  rw [List.zipIdx_map, List.flatMap_map]
  rfl

theorem collocation (hs : ScaledProblem p p' ℓ c) {k : ℕ} (hk : k < p.numSteps) (i : PanelRef) :
    (geometryOf (p'.airplanesAt k) i).collocationPoint = ℓ • (geometryOf (p.airplanesAt k) i).collocationPoint ∧
    (geometryOf (p'.airplanesAt k) i).unitNormal = (geometryOf (p.airplanesAt k) i).unitNormal := by
  rw [hs.airplanes k hk, geometryOf_scale]
  exact ⟨(Panel.scale_points _).2.2, Panel.scale_normal hs.pos _⟩

theorem rate (hs : ScaledProblem p p' ℓ c) (u : V3) : (1 / p'.deltaTime) • (ℓ • u) = c • ((1 / p.deltaTime) • u) := by
  rw [hs.time, smul_smul, smul_smul]
  congr 1
  have := hs.speed.ne'
  have := hs.pos.ne'
  rcases eq_or_ne p.deltaTime 0 with h | h
  · simp [h]
  · field_simp

theorem apparent (hs : ScaledProblem p p' ℓ c) {k : ℕ} (hk : k < p.numSteps) (i : PanelRef) :
    UnsteadySolver.apparent p' k (fun as => (geometryOf as i).collocationPoint)
      = c • UnsteadySolver.apparent p k fun as => (geometryOf as i).collocationPoint := by
  unfold UnsteadySolver.apparent
  by_cases h0 : k < 1
  · rw [if_pos h0, if_pos h0, smul_zero]
  · rw [if_neg h0, if_neg h0]
    simp only
    rw [(hs.collocation hk i).1, (hs.collocation (k := k - 1) (by omega) i).1, ← hs.rate]
    congr 1
    module

end ScaledProblem

/-- The wake vertices of step `k` correspond. -/
def WakeScaled (p : UnsteadyProblem) (ℓ : ℝ) (s₁ z₁ : UnsteadySolver) (k : ℕ) : Prop :=
  ∀ a w W, p.wing? ⟨k, a, w⟩ = some W → 0 < W.numSpanwisePanels → ∀ i ≤ k, ∀ j ≤ W.numSpanwisePanels,
    vertexAt (z₁.vertices ⟨k, a, w⟩) i j = ℓ • vertexAt (s₁.vertices ⟨k, a, w⟩) i j

/-- The bound rings of step `k` correspond. -/
def StrengthScaled (p p' : UnsteadyProblem) (e : ℝ) (s₁ z₁ : UnsteadySolver) (k : ℕ) : Prop :=
  ∀ r ∈ panelRefs (p.airplanesAt k), ∃ g, (s₁.panels k r).ring = some ((boundRing p k r).updateStrength g) ∧
    (z₁.panels k r).ring = some ((boundRing p' k r).updateStrength (e * g))

/-- The flow of step `k` corresponds wherever the same filaments are left out. -/
def FlowScaled (ℓ c : ℝ) (s₁ z₁ : UnsteadySolver) (k : ℕ) : Prop :=
  ∀ q, (∀ l, IsUnsteadyFilament s₁ k l → SameCutOff ℓ l q) → flow z₁ k (ℓ • q) = c • flow s₁ k q

namespace ScaledProblem

theorem edge_strength (hs : ScaledProblem p p' ℓ c) {j k : ℕ} (hj : j < p.numSteps) (hk : k < p.numSteps)
    (hst : StrengthScaled p p' (ℓ * c) s₁ z₁ j) {a w d : ℕ} {W : Wing} (hW : p.wing? ⟨k, a, w⟩ = some W)
    (hd : d < W.numSpanwisePanels) :
    edgeStrength p' z₁ j ⟨k, a, w⟩ d = ℓ * c * edgeStrength p s₁ j ⟨k, a, w⟩ d := by
  obtain ⟨V, hV, hn, hch⟩ := hs.made.same.wings.wing_at hj hk hW
  obtain ⟨g, h1, h2⟩ := hst _ (hs.made.same.wings.edge_mem hV (j := d) (by omega))
  rw [hch] at h1 h2
  unfold edgeStrength
  simp only
  rw [hs.chord hk, ringAt_of_panels h1, ringAt_of_panels h2]
  rfl

theorem place_ring (hs : ScaledProblem p p' ℓ c) {k : ℕ} (hk : k < p.numSteps) (hv : 0 < k → WakeScaled p ℓ s₁ z₁ k)
    (hst : ∀ j < k, StrengthScaled p p' (ℓ * c) s₁ z₁ j) {q : WakePlace} (hq : q ∈ wakePlaces p k) :
    let x := placeRing p s₁ k q
    let y := placeRing p' z₁ k q
    y.frontLeft = ℓ • x.frontLeft ∧ y.frontRight = ℓ • x.frontRight ∧ y.backLeft = ℓ • x.backLeft ∧
      y.backRight = ℓ • x.backRight ∧ y.strength = ℓ * c * x.strength ∧ y.age = ℓ / c * x.age := by
  obtain ⟨hrow, W, hW, hcol⟩ := mem_wakePlaces.mp hq
  have hpos : 0 < W.numSpanwisePanels := by omega
  have hstr := hs.edge_strength (j := k - 1 - q.row) (by omega) hk (hst _ (by omega)) hW hcol
  have hvert := hv (by omega) q.airplane q.wing W hW hpos
  simp only [placeRing, WakePlace.ref, wakeSlot, wakeRing, RingVortex.mk', hs.time]
  rw [hstr, hvert q.row (by omega) q.col (by omega), hvert q.row (by omega) (q.col + 1) (by omega),
    hvert (q.row + 1) (by omega) q.col (by omega), hvert (q.row + 1) (by omega) (q.col + 1) (by omega)]
  exact ⟨rfl, rfl, rfl, rfl, rfl, by ring⟩

theorem wake_flow (hs : ScaledProblem p p' ℓ c) (h : Trace p pres s s₁ st sm) (h' : Trace p' pres z z₁ zt zm)
    {k : ℕ} (hk : k < p.numSteps) (hv : 0 < k → WakeScaled p ℓ s₁ z₁ k)
    (hst : ∀ j < k, StrengthScaled p p' (ℓ * c) s₁ z₁ j) {q : V3}
    (hq : ∀ l, IsUnsteadyFilament s₁ k l → SameCutOff ℓ l q) : wakeFlow z₁ k (ℓ • q) = c • wakeFlow s₁ k q := by
  unfold wakeFlow
  rw [h.places hk, h'.places (hs.steps ▸ hk), h.final_eq.2.2.2.2.2.2, h'.final_eq.2.2.2.2.2.2, hs.nu hk, hs.places hk,
    List.smul_sum]
  simp only [Option.getD_some, List.map_map]
  congr 1
  apply List.map_congr_left
  intro d hd
  simp only [Function.comp]
  obtain ⟨e1, e2, e3, e4, e5, e6⟩ := hs.place_ring hk hv hst hd
  rw [e1, e2, e3, e4, e5, e6]
  apply ringInduced_units hs.pos hs.speed
  have hcut : ∀ l ∈ (RingVortex.mk' (placeRing p s₁ k d).frontLeft (placeRing p s₁ k d).frontRight
      (placeRing p s₁ k d).backLeft (placeRing p s₁ k d).backRight (placeRing p s₁ k d).strength).legs, SameCutOff ℓ l q :=
    fun l hl => hq l (Or.inr ⟨d, _, h.wakeRecord hk hd, hl⟩)
  exact RingCut.of_legs (RingVortex.mk' (placeRing p s₁ k d).frontLeft (placeRing p s₁ k d).frontRight
      (placeRing p s₁ k d).backLeft (placeRing p s₁ k d).backRight 0) _ hcut

theorem bound_cut (h : Trace p pres s s₁ st sm) {k : ℕ} (hk : k < p.numSteps) {q : V3}
    (hq : ∀ l, IsUnsteadyFilament s₁ k l → SameCutOff ℓ l q) {r : PanelRef} (hr : r ∈ panelRefs (p.airplanesAt k)) :
    RingCut ℓ (boundRing p k r).frontRight (boundRing p k r).frontLeft (boundRing p k r).backLeft
      (boundRing p k r).backRight q := by
  obtain ⟨g, hg⟩ := h.rings hk hr
  obtain ⟨panel, hpanel⟩ := (mem_panelRefs _ _).mp hr
  refine RingCut.of_legs (boundRing p k r) g fun l hl => hq l (Or.inl ⟨r, panel, _, ?_, hg, ?_⟩)
  · rw [h.final_eq.2.2.2.2.2.2]; exact hpanel
  · exact hl

theorem first_row (hs : ScaledProblem p p' ℓ c) (h : Trace p pres s s₁ st sm) (h' : Trace p' pres z z₁ zt zm)
    {k : ℕ} (hk : k < p.numSteps) (h0 : 0 < k) {a w : ℕ} {W : Wing} (hW : p.wing? ⟨k, a, w⟩ = some W)
    (hn : 0 < W.numSpanwisePanels) {j : ℕ} (hj : j ≤ W.numSpanwisePanels) :
    vertexAt (z₁.vertices ⟨k, a, w⟩) 0 j = ℓ • vertexAt (s₁.vertices ⟨k, a, w⟩) 0 j := by
  obtain ⟨v1, v2⟩ := hs.made.same.wings.edge_vertices h hk h0 hW
  have hk' : k < p'.numSteps := hs.steps ▸ hk
  have hW' : p'.wing? ⟨k, a, w⟩ = some (W.scale ℓ) := by rw [hs.wing hk, hW]; rfl
  obtain ⟨v1', v2'⟩ := hs.made'.same.wings.edge_vertices h' hk' h0 hW'
  rw [hs.chord hk] at v1' v2'
  have hW2 : (W.scale ℓ).numSpanwisePanels = W.numSpanwisePanels := rfl
  rw [hW2] at v1' v2'
  by_cases hlt : j < W.numSpanwisePanels
  · rw [v1 j hlt, v1' j hlt, (hs.ring hk _).2.2.1]
  · obtain rfl : j = W.numSpanwisePanels := by omega
    rw [v2 hn, v2' hn, (hs.ring hk _).2.2.2]

end ScaledProblem

/-- Every vertex of the wake behind a wing with panels is a corner of a recorded ring. -/
theorem trace_corner (h : Trace p pres s s₁ st sm) {k : ℕ} (hk : k < p.numSteps) (h0 : 0 < k) {a w : ℕ}
    {W : Wing} (hW : p.wing? ⟨k, a, w⟩ = some W) (hn : 0 < W.numSpanwisePanels) {i : ℕ} (hi : i ≤ k) {j : ℕ}
    (hj : j ≤ W.numSpanwisePanels) : ∃ place v, Ptera.wakeRecord s₁ k place = some v ∧
      (i = 0 → vertexAt (s₁.vertices ⟨k, a, w⟩) i j = v.frontLeft ∨ vertexAt (s₁.vertices ⟨k, a, w⟩) i j = v.frontRight) ∧
      (vertexAt (s₁.vertices ⟨k, a, w⟩) i j = v.frontLeft ∨ vertexAt (s₁.vertices ⟨k, a, w⟩) i j = v.frontRight ∨
        vertexAt (s₁.vertices ⟨k, a, w⟩) i j = v.backLeft ∨ vertexAt (s₁.vertices ⟨k, a, w⟩) i j = v.backRight) := by
  obtain ⟨i', hi', ei⟩ : ∃ i' < k, i = i' ∨ 0 < i ∧ i = i' + 1 := by
    by_cases h1 : i = 0
    · exact ⟨0, h0, Or.inl h1⟩
    · exact ⟨i - 1, by omega, Or.inr ⟨by omega, by omega⟩⟩
  obtain ⟨j', hj', ej⟩ : ∃ j' < W.numSpanwisePanels, j = j' ∨ j = j' + 1 := by
    by_cases h1 : j = 0
    · exact ⟨0, hn, Or.inl h1⟩
    · exact ⟨j - 1, by omega, Or.inr (by omega)⟩
  have hmem : (⟨a, w, i', j'⟩ : WakePlace) ∈ wakePlaces p k := mem_wakePlaces.mpr ⟨hi', W, hW, hj'⟩
  refine ⟨_, _, h.wakeRecord hk hmem, ?_, ?_⟩
  · rintro rfl
    rcases ei with rfl | ⟨h1, -⟩
    · rcases ej with rfl | rfl
      · exact Or.inl rfl
      · exact Or.inr rfl
    · omega
  · rcases ei with rfl | ⟨-, rfl⟩ <;> rcases ej with rfl | rfl
    · exact Or.inl rfl
    · exact Or.inr (Or.inl rfl)
    · exact Or.inr (Or.inr (Or.inl rfl))
    · exact Or.inr (Or.inr (Or.inr rfl))

namespace ScaledProblem

theorem next_vertices (hs : ScaledProblem p p' ℓ c) (h : Trace p pres s s₁ st sm) (h' : Trace p' pres z z₁ zt zm)
    {k : ℕ} (hk : k + 1 < p.numSteps) (hv : 0 < k → WakeScaled p ℓ s₁ z₁ k)
    (hcut : ∀ l q, IsUnsteadyFilament s₁ k l → IsUnsteadyEvaluated s₁ pres k q → SameCutOff ℓ l q)
    (hf : FlowScaled ℓ c s₁ z₁ k) : WakeScaled p ℓ s₁ z₁ (k + 1) := by
  intro a w W hW hn i hi j hj
  have hprob := h.final_eq.2.2.2.2.2.2
  cases i with
  | zero => exact hs.first_row h h' hk (by omega) hW hn hj
  | succ i =>
    obtain ⟨V, hV, hVn, -⟩ := hs.made.same.wings.wing_at (j := k) (by omega) hk hW
    have hV' : p'.wing? ⟨k, a, w⟩ = some (V.scale ℓ) := by rw [hs.wing (by omega), hV]; rfl
    have hk' : k + 1 < p'.numSteps := hs.steps ▸ hk
    have hmem : (⟨k, a, w⟩ : WingRef) ∈ wingRefs k (p.airplanesAt k) := mem_wingRefs.mpr ⟨rfl, V, hV⟩
    have hmem' : (⟨k, a, w⟩ : WingRef) ∈ wingRefs k (p'.airplanesAt k) := mem_wingRefs.mpr ⟨rfl, _, hV'⟩
    have hsp : p.spanOf ⟨k, a, w⟩ = V.numSpanwisePanels := by simp [UnsteadyProblem.spanOf, hV]
    have hsp' : p'.spanOf ⟨k, a, w⟩ = V.numSpanwisePanels := by simp [UnsteadyProblem.spanOf, hV']; rfl
    have e := h.later_rows hk hmem (i := i) (by omega) (j := j) (by omega)
    have e' := h'.later_rows hk' hmem' (i := i) (by omega) (j := j) (by omega)
    have hconv : ∀ x, (pres = false → IsUnsteadyEvaluated s₁ pres k x) →
        (zm k).convect pres (ℓ • x) = ℓ • (sm k).convect pres x := by
      intro x hx
      rw [h.convect hs.made.regular (by omega), h'.convect hs.made'.regular (by omega), hs.velocity (by omega), smul_add]
      congr 1
      cases hp : pres with
      | true =>
        simp only [if_true]
        exact hs.drift _
      | false =>
        simp only [Bool.false_eq_true, if_false]
        rw [hf x fun l hl => hcut l x hl (hx hp)]
        exact hs.drift _
    simp only at e e'
    rw [e, e']
    by_cases h0 : k = 0
    · rw [if_pos h0]
      obtain rfl : i = 0 := by omega
      rw [hs.first_row h h' hk (by omega) hW hn hj]
      apply hconv
      intro hp
      obtain ⟨place, v, hv1, hv2, -⟩ := trace_corner h hk (by omega) hW hn (i := 0) (by omega) hj
      refine Or.inr ⟨hp, by rw [hprob]; exact hk, Or.inr ⟨h0, place, v, ?_, hv2 rfl⟩⟩
      subst h0; exact hv1
    · rw [if_neg h0, hv (by omega) a w V hV (by omega) i (by omega) j (by omega)]
      apply hconv
      intro hp
      obtain ⟨place, v, hv1, -, hv2⟩ := trace_corner h (k := k) (by omega) (by omega) hV (by omega) (i := i) (by omega)
        (j := j) (by omega)
      exact Or.inr ⟨hp, by rw [hprob]; exact hk, Or.inl ⟨place, v, hv1, hv2⟩⟩

theorem at_collocation (h : Trace p pres s s₁ st sm) {k : ℕ} {i : PanelRef}
    (hi : i ∈ panelRefs (p.airplanesAt k)) :
    IsUnsteadyEvaluated s₁ pres k (geometryOf (p.airplanesAt k) i).collocationPoint := by
  obtain ⟨panel, hpanel⟩ := (mem_panelRefs _ _).mp hi
  refine Or.inl ⟨i, panel, ?_, Or.inl ?_⟩
  · rw [h.final_eq.2.2.2.2.2.2]; exact hpanel
  · rw [geometryOf_eq hpanel]

/-- The system of step `k`, entry by entry. -/
theorem entry (hs : ScaledProblem p p' ℓ c) (h : Trace p pres s s₁ st sm) {k : ℕ} (hk : k < p.numSteps)
    (hcut : ∀ l q, IsUnsteadyFilament s₁ k l → IsUnsteadyEvaluated s₁ pres k q → SameCutOff ℓ l q)
    {i j : PanelRef} (hi : i ∈ panelRefs (p.airplanesAt k)) (hj : j ∈ panelRefs (p.airplanesAt k)) :
    (unitRing p' k j (geometryOf (p'.airplanesAt k) i).collocationPoint).dot (geometryOf (p'.airplanesAt k) i).unitNormal
      = ℓ⁻¹ * (unitRing p k j (geometryOf (p.airplanesAt k) i).collocationPoint).dot
        (geometryOf (p.airplanesAt k) i).unitNormal := by
  obtain ⟨e1, e2⟩ := hs.collocation hk i
  rw [e1, e2, hs.unit hk j (bound_cut h hk (fun l hl => hcut l _ hl (at_collocation h hi)) hj), V3.smul_dot]

theorem refs (hs : ScaledProblem p p' ℓ c) {k : ℕ} (hk : k < p.numSteps) :
    panelRefs (p'.airplanesAt k) = panelRefs (p.airplanesAt k) := by
  rw [hs.airplanes k hk, panelRefs_scale]

theorem strengths (hs : ScaledProblem p p' ℓ c) (h : Trace p pres s s₁ st sm) (h' : Trace p' pres z z₁ zt zm)
    {k : ℕ} (hk : k < p.numSteps)
    (hcut : ∀ l q, IsUnsteadyFilament s₁ k l → IsUnsteadyEvaluated s₁ pres k q → SameCutOff ℓ l q)
    (hw : ∀ q, (∀ l, IsUnsteadyFilament s₁ k l → SameCutOff ℓ l q) → wakeFlow z₁ k (ℓ • q) = c • wakeFlow s₁ k q) :
    StrengthScaled p p' (ℓ * c) s₁ z₁ k ∧ FlowScaled ℓ c s₁ z₁ k := by
  have hk' : k < p'.numSteps := hs.steps ▸ hk
  have hne := hs.pos.ne'
  obtain ⟨Γ, hΓ, hring, hflow⟩ := h.values hs.made.regular hk
  obtain ⟨Γ', hΓ', hring', hflow'⟩ := h'.values hs.made'.regular hk'
  have hu : wingMatrix p k = (panelRefs (p.airplanesAt k)).map fun i => (panelRefs (p.airplanesAt k)).map fun j =>
    (unitRing p k j (geometryOf (p.airplanesAt k) i).collocationPoint).dot (geometryOf (p.airplanesAt k) i).unitNormal := rfl
  have hu' : wingMatrix p' k = (panelRefs (p'.airplanesAt k)).map fun i => (panelRefs (p'.airplanesAt k)).map fun j =>
    (unitRing p' k j (geometryOf (p'.airplanesAt k) i).collocationPoint).dot (geometryOf (p'.airplanesAt k) i).unitNormal := rfl
  rw [hu] at hΓ
  rw [hu'] at hΓ'
  rw [hs.refs hk] at hΓ' hring' hflow'
  have hS := linalgSolve_scaled (panelRefs_nodup (p.airplanesAt k)) _ _ _ (rhsAt p s₁ k) (inv_ne_zero hne)
    (fun i hi j hj => hs.entry h hk hcut hi hj) (fun _ _ => rfl) Γ hΓ
  obtain ⟨Γ₁, hΓ₁, hsc⟩ := linalgSolve_similar (panelRefs_nodup (p.airplanesAt k)) id (by rw [List.map_id])
    (fun i j => (unitRing p' k j (geometryOf (p'.airplanesAt k) i).collocationPoint).dot (geometryOf (p'.airplanesAt k) i).unitNormal)
    (fun i j => (unitRing p' k j (geometryOf (p'.airplanesAt k) i).collocationPoint).dot (geometryOf (p'.airplanesAt k) i).unitNormal)
    (rhsAt p s₁ k) (rhsAt p' z₁ k) (fun _ => 1) c hs.speed.ne' (fun _ => by norm_num) (fun i _ j _ => by simp)
    (by
      intro i hi
      simp only [id]
      unfold rhsAt
      obtain ⟨e1, e2⟩ := hs.collocation hk i
      rw [e1, e2, hw _ fun l hl => hcut l _ hl (at_collocation h hi), hs.velocity hk, hs.apparent hk, ← smul_add,
        ← smul_add, V3.smul_dot]
      ring) _ hS
  have hsc' : ∀ r ∈ panelRefs (p.airplanesAt k), Γ' r = ℓ * c * Γ r := by
    intro r hr
    rw [hΓ₁] at hΓ'
    rw [← map_inj_left (Except.ok.inj hΓ') _ hr]
    have := hsc r hr
    simp only [id, inv_inv] at this
    rw [this]; ring
  refine ⟨?_, ?_⟩
  · intro r hr
    exact ⟨Γ r, hring r hr, by rw [hring' r hr, hsc' r hr]⟩
  · intro q hq
    have hb : boundFlow z₁ k (ℓ • q) = c • boundFlow s₁ k q := by
      rw [hflow, hflow', List.smul_sum, List.map_map]
      congr 1
      apply List.map_congr_left
      intro r hr
      simp only [Function.comp]
      rw [hsc' r hr, hs.unit hk r (bound_cut h hk hq hr), smul_smul, smul_smul]
      congr 1
      field_simp
    unfold flow
    rw [hb, hw q hq, h.final_eq.2.2.2.2.2.2, h'.final_eq.2.2.2.2.2.2, hs.velocity hk, smul_add, smul_add]

/-- Wake, strengths and flow at every step. -/
theorem steps_scaled (hs : ScaledProblem p p' ℓ c) (h : Trace p pres s s₁ st sm) (h' : Trace p' pres z z₁ zt zm)
    (hcut : ∀ k < p.numSteps, ∀ l q, IsUnsteadyFilament s₁ k l → IsUnsteadyEvaluated s₁ pres k q → SameCutOff ℓ l q) :
    ∀ k < p.numSteps, (0 < k → WakeScaled p ℓ s₁ z₁ k) ∧ StrengthScaled p p' (ℓ * c) s₁ z₁ k ∧ FlowScaled ℓ c s₁ z₁ k := by
  intro k
  induction k using Nat.strong_induction_on with
  | _ k ih =>
    intro hk
    have hv : 0 < k → WakeScaled p ℓ s₁ z₁ k := by
      intro h0
      obtain ⟨m, rfl⟩ : ∃ m, k = m + 1 := ⟨k - 1, by omega⟩
      obtain ⟨h1, -, h3⟩ := ih m (by omega) (by omega)
      exact hs.next_vertices h h' hk h1 (hcut m (by omega)) h3
    exact ⟨hv, hs.strengths h h' hk (hcut k hk)
      fun q hq => hs.wake_flow h h' hk hv (fun j hj => (ih j hj (by omega)).2.1) hq⟩

/-- The run exists. -/
theorem run_exists (hs : ScaledProblem p p' ℓ c) {sl : Bool} (hr : Reached p s) (hrun : s.run pres sl = .ok s₁)
    (hcut : ∀ k < p.numSteps, ∀ l q, IsUnsteadyFilament s₁ k l → IsUnsteadyEvaluated s₁ pres k q → SameCutOff ℓ l q)
    (hz : Reached p' z) (pres' sl' : Bool) : ∃ z₁, z.run pres' sl' = .ok z₁ := by
  obtain ⟨st, sm, h⟩ := hr.trace hs.made hrun
  refine C40_run_finishes hs.made' hz ?_ pres' sl'
  intro k hk b hb
  have hk' : k < p.numSteps := hs.steps ▸ hk
  obtain ⟨Γ, hΓ, -⟩ := h.values hs.made.regular hk'
  have hu : wingMatrix p k = (panelRefs (p.airplanesAt k)).map fun i => (panelRefs (p.airplanesAt k)).map fun j =>
    (unitRing p k j (geometryOf (p.airplanesAt k) i).collocationPoint).dot (geometryOf (p.airplanesAt k) i).unitNormal := rfl
  have hu' : wingMatrix p' k = (panelRefs (p'.airplanesAt k)).map fun i => (panelRefs (p'.airplanesAt k)).map fun j =>
    (unitRing p' k j (geometryOf (p'.airplanesAt k) i).collocationPoint).dot (geometryOf (p'.airplanesAt k) i).unitNormal := rfl
  rw [hu] at hΓ
  rw [hs.refs hk'] at hu' hb
  rw [hu']
  have hS := linalgSolve_scaled (panelRefs_nodup (p.airplanesAt k)) _ _ _ (rhsAt p s₁ k) (inv_ne_zero hs.pos.ne')
    (fun i hi j hj => hs.entry h hk' (hcut k hk') hi hj) (fun _ _ => rfl) Γ hΓ
  exact linalgSolve_all _ _ hS b hb

end ScaledProblem

end Ptera
