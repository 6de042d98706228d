import Verif.Spec.Faster
import Verif.Lemmas.UnsteadyTotals
import Verif.Props.UnsteadyReruns
import Verif.Lemmas.Translated

/-! Helper lemmas: runs of one problem at two speeds. -/

namespace Ptera

open UnsteadySolver

/-- The same airplanes at every step, `c` times as fast. -/
structure FasterProblem (p p' : UnsteadyProblem) (c : ℝ) : Prop where
  made : p.Made
  made' : p'.Made
  pos : 0 < c
  steps : p'.numSteps = p.numSteps
  time : p'.deltaTime = p.deltaTime / c
  first : p'.firstResultsStep = p.firstResultsStep
  airplanes : ∀ k < p.numSteps, p'.airplanesAt k = p.airplanesAt k
  point : ∀ k < p.numSteps, p'.operatingPointAt k = { p.operatingPointAt k with
    velocity := c * (p.operatingPointAt k).velocity, nu := c * (p.operatingPointAt k).nu }

/-- A filament `c` times as strong that has aged `1 / c` as much, in a fluid `c` times as viscous. -/
theorem expandedEntry_faster {c : ℝ} (hc : 0 < c) (nu Γ age : ℝ) (a b q : V3) :
    expandedEntry (c * nu) ⟨a, b, c * Γ, age / c⟩ q = c • expandedEntry nu ⟨a, b, Γ, age⟩ q := by
  have hr : coreRadius (c * nu) ⟨a, b, c * Γ, age / c⟩ = coreRadius nu ⟨a, b, Γ, age⟩ := by
    unfold coreRadius
    simp only [abs_mul, abs_of_pos hc]
    congr 2
    field_simp
  unfold expandedEntry
  simp only [hr]
  split
  · rw [smul_zero]
  · rw [smul_smul]
    congr 1
    ring

theorem ringInduced_faster {c : ℝ} (hc : 0 < c) (nu Γ age : ℝ) (fr fl bl br q : V3) :
    ringInduced (c * nu) fr fl bl br (c * Γ) (age / c) q = c • ringInduced nu fr fl bl br Γ age q := by
  unfold ringInduced
  simp only [expandedEntry_faster hc, smul_add]

variable {p p' : UnsteadyProblem} {c : ℝ} {pres : Bool} {s s₁ z z₁ : UnsteadySolver} {st sm zt zm : ℕ → UnsteadySolver}

namespace FasterProblem

theorem velocity (hs : FasterProblem p p' c) {k : ℕ} (hk : k < p.numSteps) :
    (p'.operatingPointAt k).freestreamVelocity = c • (p.operatingPointAt k).freestreamVelocity := by
  rw [hs.point k hk]
  simp only [OperatingPoint.freestreamVelocity, smul_smul]
  rfl

theorem nu (hs : FasterProblem p p' c) {k : ℕ} (hk : k < p.numSteps) :
    (p'.operatingPointAt k).nu = c * (p.operatingPointAt k).nu := by
  rw [hs.point k hk]

theorem ring (hs : FasterProblem p p' c) {k : ℕ} (hk : k < p.numSteps) (r : PanelRef) :
    boundRing p' k r = boundRing p k r := by
  have hc := hs.pos.ne'
  unfold boundRing
  rw [hs.airplanes k hk, hs.velocity hk, hs.time]
  unfold panelRing backLeftVertex backRightVertex
  simp only [smul_smul, div_mul_cancel₀ _ hc]

theorem unit (hs : FasterProblem p p' c) {k : ℕ} (hk : k < p.numSteps) (r : PanelRef) (q : V3) :
    unitRing p' k r q = unitRing p k r q := by
  unfold unitRing
  rw [hs.ring hk]

theorem wing (hs : FasterProblem p p' c) {k : ℕ} (hk : k < p.numSteps) (a w : ℕ) :
    p'.wing? ⟨k, a, w⟩ = p.wing? ⟨k, a, w⟩ := by
  unfold UnsteadyProblem.wing?
  rw [hs.airplanes k hk]

theorem chord (hs : FasterProblem p p' c) {k : ℕ} (hk : k < p.numSteps) (a w : ℕ) :
    p'.chordOf ⟨k, a, w⟩ = p.chordOf ⟨k, a, w⟩ := by
  unfold UnsteadyProblem.chordOf
  rw [hs.wing hk]

theorem places (hs : FasterProblem p p' c) {k : ℕ} (hk : k < p.numSteps) : wakePlaces p' k = wakePlaces p k := by
  unfold wakePlaces
  rw [hs.airplanes k hk]

theorem same (hs : FasterProblem p p' c) : SimilarMotion p p M3.one 0 (fun _ _ => false) 1 id (fun _ => id) :=
  { made := hs.made, made' := hs.made, chordwise := hs.made.chordwise, steps := le_rfl, time := rfl
    similar := by
      intro k _
      exact {
        airplanes := (SimilarAirplanes.refl _).shapes
        made := hs.made.regular.made k
        made' := hs.made.regular.made k
        nonzero := one_ne_zero
        direction := by simp only [one_mulVec]
        velocity := by simp only [one_mulVec, one_smul]
        density := by simp only [_root_.one_mul] }
    nu := fun _ _ => rfl
    shared := by intro k _ a w hw; cases hw }

theorem apparent (hs : FasterProblem p p' c) {k : ℕ} (hk : k < p.numSteps) (f : List Airplane → V3) :
    UnsteadySolver.apparent p' k f = c • UnsteadySolver.apparent p k f := by
  unfold UnsteadySolver.apparent
  by_cases h0 : k < 1
  · rw [if_pos h0, if_pos h0, smul_zero]
  · rw [if_neg h0, if_neg h0, hs.airplanes k hk, hs.airplanes (k - 1) (by omega), hs.time, smul_smul]
    congr 1
    rw [one_div_div, mul_one_div]

end FasterProblem

/-- The wake vertices of step `k` are at the same places. -/
def WakeSame (p : UnsteadyProblem) (s₁ z₁ : UnsteadySolver) (k : ℕ) : Prop :=
  ∀ a w W, p.wing? ⟨k, a, w⟩ = some W → 0 < W.numSpanwisePanels → ∀ i ≤ k, ∀ j ≤ W.numSpanwisePanels,
    vertexAt (z₁.vertices ⟨k, a, w⟩) i j = vertexAt (s₁.vertices ⟨k, a, w⟩) i j

/-- The bound rings of step `k` are at the same places and `c` times as strong. -/
def StrengthFaster (p : UnsteadyProblem) (c : ℝ) (s₁ z₁ : UnsteadySolver) (k : ℕ) : Prop :=
  ∀ r ∈ panelRefs (p.airplanesAt k), ∃ g, (s₁.panels k r).ring = some ((boundRing p k r).updateStrength g) ∧
    (z₁.panels k r).ring = some ((boundRing p k r).updateStrength (c * g))

namespace FasterProblem

theorem edge_strength (hs : FasterProblem p p' c) {j k : ℕ} (hj : j < p.numSteps) (hk : k < p.numSteps)
    (hst : StrengthFaster p c s₁ z₁ j) {a w d : ℕ} {W : Wing} (hW : p.wing? ⟨k, a, w⟩ = some W)
    (hd : d < W.numSpanwisePanels) :
    edgeStrength p' z₁ j ⟨k, a, w⟩ d = c * edgeStrength p s₁ j ⟨k, a, w⟩ d := by
  obtain ⟨V, hV, hn, hch⟩ := hs.same.wings.wing_at hj hk hW
  obtain ⟨g, h1, h2⟩ := hst _ (hs.same.wings.edge_mem hV (j := d) (by omega))
  rw [hch] at h1 h2
  unfold edgeStrength
  simp only
  rw [hs.chord hk, ringAt_of_panels h1, ringAt_of_panels h2]
  rfl

theorem place_ring (hs : FasterProblem p p' c) {k : ℕ} (hk : k < p.numSteps) (hv : 0 < k → WakeSame p s₁ z₁ k)
    (hst : ∀ j < k, StrengthFaster p c s₁ z₁ j) {q : WakePlace} (hq : q ∈ wakePlaces p k) :
    placeRing p' z₁ k q = { placeRing p s₁ k q with
      strength := c * (placeRing p s₁ k q).strength, age := (placeRing p s₁ k q).age / c } := by
  obtain ⟨hrow, W, hW, hcol⟩ := mem_wakePlaces.mp hq
  have hpos : 0 < W.numSpanwisePanels := by omega
  have hstr := hs.edge_strength (j := k - 1 - q.row) (by omega) hk (hst _ (by omega)) hW hcol
  have hvert := hv (by omega) q.airplane q.wing W hW hpos
  simp only [placeRing, WakePlace.ref, wakeSlot, wakeRing, RingVortex.mk', hs.time]
  rw [hstr, hvert q.row (by omega) q.col (by omega), hvert q.row (by omega) (q.col + 1) (by omega),
    hvert (q.row + 1) (by omega) q.col (by omega), hvert (q.row + 1) (by omega) (q.col + 1) (by omega), mul_div_assoc]

theorem wake_flow (hs : FasterProblem p p' c) (h : Trace p pres s s₁ st sm) (h' : Trace p' pres z z₁ zt zm)
    {k : ℕ} (hk : k < p.numSteps) (hv : 0 < k → WakeSame p s₁ z₁ k)
    (hst : ∀ j < k, StrengthFaster p c s₁ z₁ j) (q : V3) : wakeFlow z₁ k q = c • wakeFlow s₁ k q := by
  unfold wakeFlow
  rw [h.places hk, h'.places (hs.steps ▸ hk), h.final_eq.2.2.2.2.2.2, h'.final_eq.2.2.2.2.2.2, hs.nu hk, hs.places hk,
    List.smul_sum]
  simp only [Option.getD_some, List.map_map]
  congr 1
  apply List.map_congr_left
  intro d hd
  simp only [Function.comp]
  rw [hs.place_ring hk hv hst hd]
  exact ringInduced_faster hs.pos _ _ _ _ _ _ _ _

theorem first_row (hs : FasterProblem p p' c) (h : Trace p pres s s₁ st sm) (h' : Trace p' pres z z₁ zt zm)
    {k : ℕ} (hk : k < p.numSteps) (h0 : 0 < k) {a w : ℕ} {W : Wing} (hW : p.wing? ⟨k, a, w⟩ = some W)
    (hn : 0 < W.numSpanwisePanels) {j : ℕ} (hj : j ≤ W.numSpanwisePanels) :
    vertexAt (z₁.vertices ⟨k, a, w⟩) 0 j = vertexAt (s₁.vertices ⟨k, a, w⟩) 0 j := by
  obtain ⟨v1, v2⟩ := hs.same.wings.edge_vertices h hk h0 hW
  have hk' : k < p'.numSteps := hs.steps ▸ hk
  have hW' : p'.wing? ⟨k, a, w⟩ = some W := by rw [hs.wing hk]; exact hW
  have hs' : FasterProblem p' p (1 / c) :=
    { made := hs.made', made' := hs.made, pos := by have := hs.pos; positivity, steps := hs.steps.symm
      time := by rw [hs.time]; field_simp [hs.pos.ne']
      first := hs.first.symm
      airplanes := fun k hk => (hs.airplanes k (hs.steps ▸ hk)).symm
      point := by
        intro k hk
        rw [hs.point k (hs.steps ▸ hk)]
        have := hs.pos.ne'
        simp only [← mul_assoc, one_div_mul_cancel this, _root_.one_mul] }
  obtain ⟨v1', v2'⟩ := hs'.same.wings.edge_vertices h' hk' h0 hW'
  rw [hs.chord hk] at v1' v2'
  by_cases hlt : j < W.numSpanwisePanels
  · rw [v1 j hlt, v1' j hlt, hs.ring hk]
  · obtain rfl : j = W.numSpanwisePanels := by omega
    rw [v2 hn, v2' hn, hs.ring hk]

theorem next_vertices (hs : FasterProblem p p' c) (h : Trace p pres s s₁ st sm) (h' : Trace p' pres z z₁ zt zm)
    {k : ℕ} (hk : k + 1 < p.numSteps) (hv : 0 < k → WakeSame p s₁ z₁ k)
    (hf : ∀ q, flow z₁ k q = c • flow s₁ k q) : WakeSame p s₁ z₁ (k + 1) := by
  intro a w W hW hn i hi j hj
  cases i with
  | zero => exact hs.first_row h h' hk (by omega) hW hn hj
  | succ i =>
    obtain ⟨V, hV, hVn, -⟩ := hs.same.wings.wing_at (j := k) (by omega) hk hW
    have hV' : p'.wing? ⟨k, a, w⟩ = some V := by rw [hs.wing (by omega)]; exact hV
    have hk' : k + 1 < p'.numSteps := hs.steps ▸ hk
    have hmem : (⟨k, a, w⟩ : WingRef) ∈ wingRefs k (p.airplanesAt k) := mem_wingRefs.mpr ⟨rfl, V, hV⟩
    have hmem' : (⟨k, a, w⟩ : WingRef) ∈ wingRefs k (p'.airplanesAt k) := mem_wingRefs.mpr ⟨rfl, V, hV'⟩
    have hsp : p.spanOf ⟨k, a, w⟩ = V.numSpanwisePanels := by simp [UnsteadyProblem.spanOf, hV]
    have hsp' : p'.spanOf ⟨k, a, w⟩ = V.numSpanwisePanels := by simp [UnsteadyProblem.spanOf, hV']
    have e := h.later_rows hk hmem (i := i) (by omega) (j := j) (by omega)
    have e' := h'.later_rows hk' hmem' (i := i) (by omega) (j := j) (by omega)
    have hconv : ∀ x, (zm k).convect pres x = (sm k).convect pres x := by
      intro x
      rw [h.convect hs.made.regular (by omega), h'.convect hs.made'.regular (by omega), hs.time, hf,
        hs.velocity (by omega)]
      have := hs.pos.ne'
      cases pres <;> simp only [if_true, if_false, Bool.false_eq_true, smul_smul, div_mul_cancel₀ _ this]
    simp only at e e'
    rw [e, e', hconv]
    congr 1
    by_cases h0 : k = 0
    · rw [if_pos h0]
      obtain rfl : i = 0 := by omega
      exact hs.first_row h h' hk (by omega) hW hn hj
    · rw [if_neg h0]
      exact hv (by omega) a w V hV (by omega) i (by omega) j (by omega)

theorem matrix (hs : FasterProblem p p' c) {k : ℕ} (hk : k < p.numSteps) : wingMatrix p' k = wingMatrix p k := by
  unfold wingMatrix
  rw [hs.airplanes k hk]
  simp only [hs.unit hk]

theorem strengths (hs : FasterProblem p p' c) (h : Trace p pres s s₁ st sm) (h' : Trace p' pres z z₁ zt zm)
    {k : ℕ} (hk : k < p.numSteps) (hw : ∀ q, wakeFlow z₁ k q = c • wakeFlow s₁ k q) :
    StrengthFaster p c s₁ z₁ k ∧ ∀ q, flow z₁ k q = c • flow s₁ k q := by
  have hk' : k < p'.numSteps := hs.steps ▸ hk
  obtain ⟨Γ, hΓ, hring, hflow⟩ := h.values hs.made.regular hk
  obtain ⟨Γ', hΓ', hring', hflow'⟩ := h'.values hs.made'.regular hk'
  rw [hs.matrix hk, hs.airplanes k hk] at hΓ'
  rw [hs.airplanes k hk] at hring' hflow'
  have hu : wingMatrix p k = (panelRefs (p.airplanesAt k)).map fun i => (panelRefs (p.airplanesAt k)).map fun j =>
    (unitRing p k j (geometryOf (p.airplanesAt k) i).collocationPoint).dot (geometryOf (p.airplanesAt k) i).unitNormal := rfl
  rw [hu] at hΓ hΓ'
  obtain ⟨Γ₁, hΓ₁, hsc⟩ := linalgSolve_similar (panelRefs_nodup (p.airplanesAt k)) id (by rw [List.map_id])
    (fun i j => (unitRing p k j (geometryOf (p.airplanesAt k) i).collocationPoint).dot (geometryOf (p.airplanesAt k) i).unitNormal)
    (fun i j => (unitRing p k j (geometryOf (p.airplanesAt k) i).collocationPoint).dot (geometryOf (p.airplanesAt k) i).unitNormal)
    (rhsAt p s₁ k) (rhsAt p' z₁ k) (fun _ => 1) c hs.pos.ne' (fun _ => by norm_num) (fun i _ j _ => by simp)
    (by
      intro i _
      simp only [id]
      unfold rhsAt
      rw [hs.airplanes k hk, hw, hs.velocity hk, hs.apparent hk, ← smul_add, ← smul_add, V3.smul_dot]
      ring) Γ hΓ
  have hsc' : ∀ r ∈ panelRefs (p.airplanesAt k), Γ' r = c * Γ r := by
    intro r hr
    rw [hΓ₁] at hΓ'
    rw [← map_inj_left (Except.ok.inj hΓ') _ hr]
    have := hsc r hr
    rwa [_root_.mul_one] at this
  refine ⟨?_, ?_⟩
  · intro r hr
    refine ⟨Γ r, hring r hr, ?_⟩
    rw [hring' r hr, hsc' r hr, hs.ring hk]
  · intro q
    have hb : boundFlow z₁ k q = c • boundFlow s₁ k q := by
      rw [hflow, hflow', List.smul_sum, List.map_map]
      congr 1
      apply List.map_congr_left
      intro r hr
      simp only [Function.comp]
      rw [hsc' r hr, hs.unit hk, smul_smul]
    unfold flow
    rw [hb, hw, h.final_eq.2.2.2.2.2.2, h'.final_eq.2.2.2.2.2.2, hs.velocity hk, smul_add, smul_add]

/-- Wake, strengths and flow at every step. -/
theorem steps_faster (hs : FasterProblem p p' c) (h : Trace p pres s s₁ st sm) (h' : Trace p' pres z z₁ zt zm) :
    ∀ k < p.numSteps, (0 < k → WakeSame p s₁ z₁ k) ∧ StrengthFaster p c s₁ z₁ k ∧ ∀ q, flow z₁ k q = c • flow s₁ k q := by
  intro k
  induction k using Nat.strong_induction_on with
  | _ k ih =>
    intro hk
    have hv : 0 < k → WakeSame p s₁ z₁ k := by
      intro h0
      obtain ⟨m, rfl⟩ : ∃ m, k = m + 1 := ⟨k - 1, by omega⟩
      obtain ⟨h1, -, h3⟩ := ih m (by omega) (by omega)
      exact hs.next_vertices h h' hk h1 h3
    exact ⟨hv, hs.strengths h h' hk (hs.wake_flow h h' hk hv fun j hj => (ih j hj (by omega)).2.1)⟩

/-- The run exists. -/
theorem run_exists (hs : FasterProblem p p' c) {sl : Bool} (hr : Reached p s) (hrun : s.run pres sl = .ok s₁)
    (hz : Reached p' z) (pres' sl' : Bool) : ∃ z₁, z.run pres' sl' = .ok z₁ := by
  obtain ⟨st, sm, h⟩ := hr.trace hs.made hrun
  refine C40_run_finishes hs.made' hz ?_ pres' sl'
  intro k hk b hb
  have hk' : k < p.numSteps := hs.steps ▸ hk
  obtain ⟨Γ, hΓ, -⟩ := h.values hs.made.regular hk'
  have hu : wingMatrix p k = (panelRefs (p.airplanesAt k)).map fun i => (panelRefs (p.airplanesAt k)).map fun j =>
    (unitRing p k j (geometryOf (p.airplanesAt k) i).collocationPoint).dot (geometryOf (p.airplanesAt k) i).unitNormal := rfl
  have hm := hs.matrix hk'
  rw [hu] at hΓ hm
  rw [hs.airplanes k hk'] at hb
  rw [hm]
  exact linalgSolve_all _ _ hΓ b hb

theorem relative (hs : FasterProblem p p' c) (h : Trace p pres s s₁ st sm) (h' : Trace p' pres z z₁ zt zm)
    {k : ℕ} (hk : k < p.numSteps) (hf : ∀ q, flow z₁ k q = c • flow s₁ k q) {r : PanelRef}
    (hr : r ∈ panelRefs (p.airplanesAt k)) (mid : RingVortex → V3)
    (hmid : ∀ v : RingVortex, ∀ g, mid (v.updateStrength g) = mid v) :
    relativeFlow z₁ k r mid = c • relativeFlow s₁ k r mid := by
  have hpt : ∀ j < p.numSteps, ringPoint z₁ j r mid = ringPoint s₁ j r mid := by
    intro j hj
    have hr' := hr
    rw [panelRefs_same hs.made.regular hk hj] at hr'
    obtain ⟨g, h1, h2⟩ := (hs.steps_faster h h' j hj).2.1 r hr'
    unfold ringPoint
    rw [h1, h2]
    simp only [Option.map_some, Option.getD_some, hmid]
  unfold relativeFlow
  rw [hpt k hk, hf, smul_sub]
  congr 1
  unfold pointVelocity
  cases k with
  | zero => simp only [smul_zero]
  | succ k =>
    simp only
    rw [hpt _ hk, hpt k (by omega), h.final_eq.2.2.2.2.2.2, h'.final_eq.2.2.2.2.2.2, hs.time, smul_smul]
    congr 1
    rw [one_div_div, mul_one_div]

theorem panel_loads (hs : FasterProblem p p' c) {sl sl' : Bool} (hr : Reached p s) (hz : Reached p' z)
    (hrun : s.run pres sl = .ok s₁) (hrun' : z.run pres sl' = .ok z₁) {k : ℕ} (hk : k < p.numSteps)
    (hfirst : p.firstResultsStep ≤ (k : ℤ)) (r : PanelRef) (q : Panel) (hq : panelAt (p.airplanesAt k) r = some q) :
    ∃ L L', (s₁.panels k r).loads = some L ∧ (z₁.panels k r).loads = some L' ∧
      L'.forceGeometry = c ^ 2 • L.forceGeometry ∧ L'.momentGeometry = c ^ 2 • L.momentGeometry := by
  obtain ⟨st, sm, h⟩ := hr.trace hs.made hrun
  obtain ⟨zt, zm, h'⟩ := hz.trace hs.made' hrun'
  have hk' : k < p'.numSteps := hs.steps ▸ hk
  obtain ⟨-, hst, hf⟩ := hs.steps_faster h h' k hk
  have hmem : r ∈ panelRefs (p.airplanesAt k) := (mem_panelRefs _ _).mpr ⟨q, hq⟩
  have hstr : ∀ j < p.numSteps, ∀ r, strengthAt (p.airplanesAt j) (z₁.panels j) r
      = c * strengthAt (p.airplanesAt j) (s₁.panels j) r := by
    intro j hj r
    cases hp : panelAt (p.airplanesAt j) r with
    | none => rw [strengthAt_none hp, strengthAt_none hp, mul_zero]
    | some d =>
      obtain ⟨g, h1, h2⟩ := (hs.steps_faster h h' j hj).2.1 r ((mem_panelRefs _ _).mpr ⟨d, hp⟩)
      rw [strengthAt_some hp, strengthAt_some hp, h1, h2]
      rfl
  have hnets : netFront (p.airplanesAt k) (z₁.panels k) r = c * netFront (p.airplanesAt k) (s₁.panels k) r ∧
      netLeft (p.airplanesAt k) (z₁.panels k) r = c * netLeft (p.airplanesAt k) (s₁.panels k) r ∧
      netRight (p.airplanesAt k) (z₁.panels k) r = c * netRight (p.airplanesAt k) (s₁.panels k) r := by
    unfold netFront netLeft netRight
    simp only [hstr k hk]
    refine ⟨?_, ?_, by ring⟩ <;> split <;> ring
  obtain ⟨n1, n2, n3⟩ := hnets
  obtain ⟨A, w, hA, -, -⟩ := panelAt_cell hq
  obtain ⟨L, v, F, Lf, R, U, h1, h2, h3, h4, h5, h6, h7, h8⟩ := C35_unsteady hs.made hr hrun k hk hfirst r q A hq hA
  obtain ⟨L', v', F', Lf', R', U', g1, g2, g3, g4, g5, g6, g7, g8⟩ := C35_unsteady hs.made' hz hrun' k hk'
    (by rw [hs.first]; exact hfirst) r q A (by rw [hs.airplanes k hk]; exact hq) (by rw [hs.airplanes k hk]; exact hA)
  obtain ⟨g, hv1, hv2⟩ := hst r hmem
  rw [h2, Option.some.injEq] at hv1
  rw [g2, Option.some.injEq] at hv2
  have hprev : previousStrength z₁ k r = c * previousStrength s₁ k r := by
    cases k with
    | zero => simp [previousStrength]
    | succ k =>
      simp only [previousStrength]
      rw [h.final_eq.2.2.2.2.2.2, h'.final_eq.2.2.2.2.2.2, hs.airplanes k (by omega)]
      exact hstr k (by omega) r
  have hfront := hs.relative h h' hk hf hmem RingVortex.frontMiddle (fun _ _ => rfl)
  have hleft := hs.relative h h' hk hf hmem RingVortex.leftMiddle (fun _ _ => rfl)
  have hright := hs.relative h h' hk hf hmem RingVortex.rightMiddle (fun _ _ => rfl)
  have hden : (p'.operatingPointAt k).density = (p.operatingPointAt k).density := by rw [hs.point k hk]
  have hkj : ∀ (d n : ℝ) (u x : V3), kuttaJoukowski d (c * n) (c • u) x = c ^ 2 • kuttaJoukowski d n u x := by
    intro d n u x
    unfold kuttaJoukowski
    rw [V3.smul_cross, smul_smul, smul_smul]
    congr 1
    ring
  refine ⟨L, L', h1, g1, ?_⟩
  subst hv1 hv2
  simp only [RingVortex.updateStrength] at h3 h4 h5 h6 g3 g4 g5 g6
  have hF : F' = c ^ 2 • F := by rw [g3, h3, hden, hs.airplanes k hk, n1, hfront, hkj]
  have hL : Lf' = c ^ 2 • Lf := by rw [g4, h4, hden, hs.airplanes k hk, n2, hleft, hkj]
  have hR : R' = c ^ 2 • R := by rw [g5, h5, hden, hs.airplanes k hk, n3, hright, hkj]
  have hU : U' = c ^ 2 • U := by
    rw [g6, h6, hden, hprev, hs.time, smul_smul]
    congr 1
    field_simp [hs.pos.ne']
  have hm : ∀ g' (f : RingVortex → V3), (∀ v : RingVortex, ∀ g, f (v.updateStrength g) = f v) →
      f ((boundRing p k r).updateStrength g') = f (boundRing p k r) := fun g' f hf => hf _ _
  rw [g7, g8, h7, h8, hF, hL, hR, hU]
  refine ⟨by simp only [smul_add], ?_⟩
  rw [hm _ RingVortex.frontMiddle (fun _ _ => rfl), hm _ RingVortex.leftMiddle (fun _ _ => rfl),
    hm _ RingVortex.rightMiddle (fun _ _ => rfl), hm _ RingVortex.frontMiddle (fun _ _ => rfl),
    hm _ RingVortex.leftMiddle (fun _ _ => rfl), hm _ RingVortex.rightMiddle (fun _ _ => rfl)]
  simp only [V3.cross_smul, smul_add]

/-- All steps of the two runs correspond. -/
theorem corresponds (hs : FasterProblem p p' c) {sl : Bool} (hr : Reached p s) (hrun : s.run pres sl = .ok s₁)
    (hz : Reached p' z) (sl' : Bool) :
    ∃ z₁, z.run pres sl' = .ok z₁ ∧ ∀ k < p.numSteps, StepFaster p c s₁ z₁ k := by
  obtain ⟨z₁, hrun'⟩ := hs.run_exists hr hrun hz pres sl'
  refine ⟨z₁, hrun', ?_⟩
  intro k hk
  obtain ⟨st, sm, h⟩ := hr.trace hs.made hrun
  obtain ⟨zt, zm, h'⟩ := hz.trace hs.made' hrun'
  have hk' : k < p'.numSteps := hs.steps ▸ hk
  obtain ⟨hv, hst, hf⟩ := hs.steps_faster h h' k hk
  have hrot : (p'.operatingPointAt k).rotationWindToGeometry = (p.operatingPointAt k).rotationWindToGeometry := by
    rw [hs.point k hk]; rfl
  have hp := fun hfr r q hq => hs.panel_loads hr hz hrun hrun' hk hfr r q hq
  refine ⟨hf, ?_, ?_, ?_, ?_⟩
  · intro r d hd
    obtain ⟨g, h1, h2⟩ := hst r ((mem_panelRefs _ _).mpr ⟨d, hd⟩)
    exact ⟨_, _, h1, h2, rfl, rfl, rfl, rfl, rfl⟩
  · intro q hq
    refine ⟨placeRing p s₁ k q, ?_, ?_⟩
    · unfold wakeRecord
      rw [h.places hk, h.final_eq.2.2.2.2.2.2, Option.bind_some, List.getElem?_map, idxOf_getElem? hq, Option.map_some]
    · unfold wakeRecord
      have hq' := hq
      rw [← hs.places hk] at hq'
      rw [h'.places hk', h'.final_eq.2.2.2.2.2.2, Option.bind_some, List.getElem?_map, idxOf_getElem? hq', Option.map_some,
        hs.place_ring hk hv (fun j hj => (hs.steps_faster h h' j (by omega)).2.1) hq]
  · intro hfr r q hq
    have hfr' : p'.firstResultsStep ≤ (k : ℤ) := by rw [hs.first]; exact hfr
    obtain ⟨L, L', h3, h4, h5, h6⟩ := hp hfr r q hq
    obtain ⟨A, -, hA, -⟩ := panelAt_cell hq
    obtain ⟨-, Q, -, hQ, -⟩ := C37_unsteady hs.made hr hrun k hk hfr _ A hA
    obtain ⟨-, Q', -, hQ', -⟩ := C37_unsteady hs.made' hz hrun' k hk' hfr' _ A (by rw [hs.airplanes k hk]; exact hA)
    have hmem := List.mem_filter (p := fun s : PanelRef => s.airplane = r.airplane)|>.mpr
      ⟨(mem_panelRefs _ _).mpr ⟨q, hq⟩, by simp⟩
    obtain ⟨q1, q2, q3⟩ := hQ r hmem
    obtain ⟨q1', q2', q3'⟩ := hQ' r (by rw [hs.airplanes k hk]; exact hmem)
    rw [h3, Option.some.injEq] at q1
    rw [h4, Option.some.injEq] at q1'
    subst q1
    subst q1'
    refine ⟨_, _, h3, h4, h5, h6, ?_, ?_⟩
    · rw [q2', hrot, h5, M3.mulVec_smul, q2]
    · rw [q3', hrot, h6, M3.mulVec_smul, q3]
  · intro hfr a A hA
    have hfr' : p'.firstResultsStep ≤ (k : ℤ) := by rw [hs.first]; exact hfr
    obtain ⟨L, Q, hL, hQ, f1, f2, f3⟩ := C37_unsteady hs.made hr hrun k hk hfr _ A hA
    obtain ⟨L', Q', hL', hQ', g1, g2, g3⟩ := C37_unsteady hs.made' hz hrun' k hk' hfr' _ A
      (by rw [hs.airplanes k hk]; exact hA)
    rw [hs.airplanes k hk] at hQ' g1 g2
    rw [hrot] at hQ'
    have hpan : ∀ r ∈ (panelRefs (p.airplanesAt k)).filter (fun r => r.airplane = a),
        (Q' r).forceWind = c ^ 2 • (Q r).forceWind ∧ (Q' r).momentWind = c ^ 2 • (Q r).momentWind := by
      intro r hr
      obtain ⟨q, hq⟩ := (mem_panelRefs _ _).mp (List.mem_filter.mp hr).1
      obtain ⟨K, K', h3, h4, h5, h6⟩ := hp hfr r q hq
      obtain ⟨q1, q2, q3⟩ := hQ r hr
      obtain ⟨q1', q2', q3'⟩ := hQ' r hr
      rw [h3, Option.some.injEq] at q1
      rw [h4, Option.some.injEq] at q1'
      subst q1
      subst q1'
      rw [q2, q3, q2', q3', h5, h6, M3.mulVec_smul, M3.mulVec_smul]
      exact ⟨rfl, rfl⟩
    have e1 : L'.forceWind = c ^ 2 • L.forceWind := by
      rw [g1, f1, List.smul_sum, List.map_map]
      exact congrArg List.sum (List.map_congr_left fun r hr => (hpan r hr).1)
    have e2 : L'.momentWind = c ^ 2 • L.momentWind := by
      rw [g2, f2, List.smul_sum, List.map_map]
      exact congrArg List.sum (List.map_congr_left fun r hr => (hpan r hr).2)
    have hc2 : c ^ 2 ≠ 0 := pow_ne_zero 2 hs.pos.ne'
    obtain ⟨e3, e4⟩ := IsCoefficients.scale (op := p.operatingPointAt k) (op' := p'.operatingPointAt k) (A := A) (A' := A)
      f3 g3 hc2 (by rw [hs.point k hk]; simp only; ring) rfl rfl rfl e1 e2
    exact ⟨L, L', hL, hL', e1, e2, e3, e4⟩

end FasterProblem

end Ptera
