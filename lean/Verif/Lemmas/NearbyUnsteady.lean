import Verif.Spec.NearbyUnsteady
import Verif.Lemmas.Nearby
import Verif.Lemmas.Faster
import Verif.Props.FlatPanels

/-! Unsteady problems that tend to an unsteady problem. -/

namespace Ptera

open Filter Topology UnsteadySolver

variable {ι : Type*} {F : Filter ι}

/-- The velocity of a filament is continuous away from where it is cut off, also in its strength and age and in the
viscosity. -/
theorem filament_tends {A B x : ι → V3} {A₀ B₀ x₀ : V3} {nu Γ age : ι → ℝ} {nu₀ Γ₀ age₀ : ℝ} (hA : V3.Tends A F A₀)
    (hB : V3.Tends B F B₀) (hx : V3.Tends x F x₀) (hnu : Tendsto nu F (𝓝 nu₀)) (hΓ : Tendsto Γ F (𝓝 Γ₀))
    (hage : Tendsto age F (𝓝 age₀)) (h : Seg.OffBorder ⟨A₀, B₀, Γ₀, age₀⟩ x₀) :
    V3.Tends (fun n => expandedEntry (nu n) ⟨A n, B n, Γ n, age n⟩ (x n)) F
      (expandedEntry nu₀ ⟨A₀, B₀, Γ₀, age₀⟩ x₀) := by
  obtain ⟨h1, h2, h3⟩ := h
  simp only at h1 h2 h3
  have he : (0 : ℝ) < eps := by unfold eps; norm_num
  have t1 := hA.sub hx
  have t2 := hB.sub hx
  have t3 := t1.cross t2
  have n1 := t1.norm
  have n2 := t2.norm
  have n3 := t3.norm.pow 2
  rw [expandedEntry_eq]
  by_cases h : Cutoff ⟨A₀, B₀, Γ₀, age₀⟩ x₀
  · rw [if_pos h]
    refine (V3.Tends.const 0).congr' ?_
    rcases h with h | h | h
    · filter_upwards [n1.eventually_lt_const h] with n hn
      have hc : Cutoff ⟨A n, B n, Γ n, age n⟩ (x n) := by unfold Cutoff; exact Or.inl hn
      rw [expandedEntry_eq, if_pos hc]
    · filter_upwards [n2.eventually_lt_const h] with n hn
      have hc : Cutoff ⟨A n, B n, Γ n, age n⟩ (x n) := by unfold Cutoff; exact Or.inr (Or.inl hn)
      rw [expandedEntry_eq, if_pos hc]
    · filter_upwards [n3.eventually_lt_const h] with n hn
      have hc : Cutoff ⟨A n, B n, Γ n, age n⟩ (x n) := by unfold Cutoff; exact Or.inr (Or.inr hn)
      rw [expandedEntry_eq, if_pos hc]
  · rw [if_neg h]
    unfold Cutoff at h
    push Not at h
    obtain ⟨g1, g2, g3⟩ := h
    simp only at g1 g2 g3
    have k1 := lt_of_le_of_ne g1 (Ne.symm h1)
    have k2 := lt_of_le_of_ne g2 (Ne.symm h2)
    have k3 := lt_of_le_of_ne g3 (Ne.symm h3)
    have hr : Tendsto (fun n => coreRadius (nu n) ⟨A n, B n, Γ n, age n⟩) F
        (𝓝 (coreRadius nu₀ ⟨A₀, B₀, Γ₀, age₀⟩)) := by
      unfold coreRadius
      exact ((Real.continuous_sqrt.tendsto _).comp
        (((hnu.add (hΓ.abs.const_mul _)).const_mul _).mul hage)).const_mul 2
    have hlim : V3.Tends (fun n => kernelCoeff (nu n) ⟨A n, B n, Γ n, age n⟩ (x n) • (A n - x n).cross (B n - x n)) F
        (kernelCoeff nu₀ ⟨A₀, B₀, Γ₀, age₀⟩ x₀ • (A₀ - x₀).cross (B₀ - x₀)) := by
      refine V3.Tends.smul ?_ t3
      unfold kernelCoeff
      refine Tendsto.div (((hΓ.div_const _).mul (n1.add n2)).mul ((n1.mul n2).sub (t1.dot t2)))
        ((n1.mul n2).mul (n3.add (((hB.sub hA).norm.pow 2).mul (hr.pow 2)))) ?_
      have p1 : 0 < (A₀ - x₀).norm := he.trans k1
      have p2 : 0 < (B₀ - x₀).norm := he.trans k2
      have p3 : 0 < ((A₀ - x₀).cross (B₀ - x₀)).norm ^ 2 := he.trans k3
      positivity
    refine hlim.congr' ?_
    filter_upwards [n1.eventually_const_lt k1, n2.eventually_const_lt k2, n3.eventually_const_lt k3] with n e1 e2 e3
    rw [expandedEntry_eq, if_neg]
    unfold Cutoff
    push Not
    exact ⟨e1.le, e2.le, e3.le⟩

theorem ringInduced_tends {a b c d x : ι → V3} {a₀ b₀ c₀ d₀ x₀ : V3} {nu Γ age : ι → ℝ} {nu₀ Γ₀ age₀ : ℝ}
    (ha : V3.Tends a F a₀) (hb : V3.Tends b F b₀) (hc : V3.Tends c F c₀) (hd : V3.Tends d F d₀) (hx : V3.Tends x F x₀)
    (hnu : Tendsto nu F (𝓝 nu₀)) (hΓ : Tendsto Γ F (𝓝 Γ₀)) (hage : Tendsto age F (𝓝 age₀))
    (h : ∀ f ∈ ringFilaments d₀ a₀ b₀ c₀ Γ₀ age₀, f.OffBorder x₀) :
    V3.Tends (fun n => ringInduced (nu n) (a n) (b n) (c n) (d n) (Γ n) (age n) (x n)) F
      (ringInduced nu₀ a₀ b₀ c₀ d₀ Γ₀ age₀ x₀) := by
  simp only [ringFilaments, List.mem_cons, List.not_mem_nil, or_false] at h
  unfold ringInduced
  exact (((filament_tends hd ha hx hnu hΓ hage (h _ (Or.inl rfl))).add
    (filament_tends ha hb hx hnu hΓ hage (h _ (Or.inr (Or.inl rfl))))).add
    (filament_tends hb hc hx hnu hΓ hage (h _ (Or.inr (Or.inr (Or.inl rfl)))))).add
    (filament_tends hc hd hx hnu hΓ hage (h _ (Or.inr (Or.inr (Or.inr rfl)))))

theorem eventually_list {α : Type*} {l : List α} {P : ι → α → Prop} (h : ∀ a ∈ l, ∀ᶠ n in F, P n a) :
    ∀ᶠ n in F, ∀ a ∈ l, P n a :=
  (Filter.eventually_all_finite (l := F) (List.finite_toSet l) (p := fun a n => P n a)).mpr h

/-- The unsteady problems `q` tend to `p`. -/
structure UnsteadyApproach (F : Filter ι) (q : ι → UnsteadyProblem) (p : UnsteadyProblem) : Prop where
  made : p.Made
  made' : ∀ n, (q n).Made
  numSteps : ∀ n, (q n).numSteps = p.numSteps
  first : ∀ n, (q n).firstResultsStep = p.firstResultsStep
  time : Tendsto (fun n => (q n).deltaTime) F (𝓝 p.deltaTime)
  nonzero : p.deltaTime ≠ 0
  step : ∀ k < p.numSteps, Approach F (fun n => ⟨(q n).airplanesAt k, (q n).operatingPointAt k⟩)
    ⟨p.airplanesAt k, p.operatingPointAt k⟩
  nu : ∀ k < p.numSteps, Tendsto (fun n => ((q n).operatingPointAt k).nu) F (𝓝 (p.operatingPointAt k).nu)

theorem sameMotion {p : UnsteadyProblem} (hp : p.Made) :
    SimilarMotion p p M3.one 0 (fun _ _ => false) 1 id (fun _ => id) :=
  { made := hp, made' := hp, chordwise := hp.chordwise, steps := le_rfl, time := rfl
    similar := by
      intro k _
      exact {
        airplanes := (SimilarAirplanes.refl _).shapes
        made := hp.regular.made k
        made' := hp.regular.made k
        nonzero := one_ne_zero
        direction := by simp only [one_mulVec]
        velocity := by simp only [one_mulVec, one_smul]
        density := by simp only [_root_.one_mul] }
    nu := fun _ _ => rfl
    shared := by intro k _ a w hw; cases hw }

variable {p : UnsteadyProblem} {q : ι → UnsteadyProblem}

namespace UnsteadyApproach

theorem refs (h : UnsteadyApproach F q p) {k : ℕ} (hk : k < p.numSteps) (n : ι) :
    panelRefs ((q n).airplanesAt k) = panelRefs (p.airplanesAt k) := by
  have hp := (h.step k hk).refs n
  rw [List.map_id] at hp
  refine hp.eq_of_pairwise ?_ (panelRefs_ordered _) (panelRefs_ordered _)
  intro a b _ _ h1 h2
  unfold PanelRef.Before at h1 h2
  omega

/-- Wings with panels correspond. -/
theorem wing (h : UnsteadyApproach F q p) {k : ℕ} (hk : k < p.numSteps) (n : ι) {a w : ℕ} {W : Wing}
    (hW : p.wing? ⟨k, a, w⟩ = some W) (hn : 0 < W.numSpanwisePanels) :
    ∃ W', (q n).wing? ⟨k, a, w⟩ = some W' ∧ W'.numSpanwisePanels = W.numSpanwisePanels ∧
      (q n).chordOf ⟨k, a, w⟩ = p.chordOf ⟨k, a, w⟩ := by
  have hiff : ∀ i j, (panelAt (p.airplanesAt k) ⟨a, w, i, j⟩).isSome ↔
      (panelAt ((q n).airplanesAt k) ⟨a, w, i, j⟩).isSome := by
    intro i j
    rw [Option.isSome_iff_exists, Option.isSome_iff_exists]
    exact (h.step k hk).panels n ⟨a, w, i, j⟩
  have hch : 0 < W.spec.numChordwisePanels := h.made.chordwise _ W hW
  have h0 := (hiff 0 0).mp ((panelAt_isSome h.made.regular hW 0 0).mpr ⟨hch, hn⟩)
  obtain ⟨pan, hpan⟩ := Option.isSome_iff_exists.mp h0
  obtain ⟨A, W', hA, hW', -⟩ := panelAt_cell hpan
  have hq : (q n).wing? ⟨k, a, w⟩ = some W' := Option.bind_eq_some_iff.mpr ⟨A, hA, hW'⟩
  have hcell : ∀ i j, i < W.spec.numChordwisePanels ∧ j < W.numSpanwisePanels ↔
      i < W'.spec.numChordwisePanels ∧ j < W'.numSpanwisePanels := by
    intro i j
    rw [← panelAt_isSome h.made.regular hW, hiff, panelAt_isSome (h.made' n).regular hq]
  have c0 := (hcell 0 0).mp ⟨hch, hn⟩
  have e1 : W'.numSpanwisePanels = W.numSpanwisePanels := by
    have a1 := hcell 0 (W.numSpanwisePanels)
    have a2 := hcell 0 (W'.numSpanwisePanels)
    omega
  have e2 : W'.spec.numChordwisePanels = W.spec.numChordwisePanels := by
    have a1 := hcell (W.spec.numChordwisePanels) 0
    have a2 := hcell (W'.spec.numChordwisePanels) 0
    omega
  exact ⟨W', hq, e1, by simp [UnsteadyProblem.chordOf, hW, hq, e2]⟩

theorem wing' (h : UnsteadyApproach F q p) {k : ℕ} (hk : k < p.numSteps) (n : ι) {a w : ℕ} {W' : Wing}
    (hW : (q n).wing? ⟨k, a, w⟩ = some W') (hn : 0 < W'.numSpanwisePanels) :
    ∃ W, p.wing? ⟨k, a, w⟩ = some W ∧ 0 < W.numSpanwisePanels := by
  have hch : 0 < W'.spec.numChordwisePanels := (h.made' n).chordwise _ W' hW
  obtain ⟨pan, hpan⟩ := Option.isSome_iff_exists.mp ((panelAt_isSome (h.made' n).regular hW 0 0).mpr ⟨hch, hn⟩)
  obtain ⟨pan', hpan'⟩ := ((h.step k hk).panels n ⟨a, w, 0, 0⟩).mpr ⟨pan, hpan⟩
  obtain ⟨A, W, hA, hW', -⟩ := panelAt_cell hpan'
  have hq : p.wing? ⟨k, a, w⟩ = some W := Option.bind_eq_some_iff.mpr ⟨A, hA, hW'⟩
  exact ⟨W, hq, ((panelAt_isSome h.made.regular hq 0 0).mp (Option.isSome_iff_exists.mpr ⟨_, hpan'⟩)).2⟩

theorem places_mem (h : UnsteadyApproach F q p) {k : ℕ} (hk : k < p.numSteps) (n : ι) (d : WakePlace) :
    d ∈ wakePlaces (q n) k ↔ d ∈ wakePlaces p k := by
  rw [mem_wakePlaces, mem_wakePlaces]
  constructor
  · rintro ⟨h1, W', hW', h2⟩
    obtain ⟨W, hW, hpos⟩ := h.wing' hk n hW' (by omega)
    obtain ⟨W₂, hW₂, e, -⟩ := h.wing hk n hW hpos
    rw [hW'] at hW₂
    cases hW₂
    exact ⟨h1, W, hW, by omega⟩
  · rintro ⟨h1, W, hW, h2⟩
    obtain ⟨W', hW', e, -⟩ := h.wing hk n hW (by omega)
    exact ⟨h1, W', hW', by omega⟩

theorem places (h : UnsteadyApproach F q p) {k : ℕ} (hk : k < p.numSteps) (n : ι) :
    (wakePlaces (q n) k).Perm (wakePlaces p k) :=
  (List.perm_ext_iff_of_nodup (wakePlaces_nodup _ k) (wakePlaces_nodup _ k)).mpr fun d => h.places_mem hk n d

theorem freestream (h : UnsteadyApproach F q p) {k : ℕ} (hk : k < p.numSteps) :
    V3.Tends (fun n => ((q n).operatingPointAt k).freestreamVelocity) F (p.operatingPointAt k).freestreamVelocity :=
  (h.step k hk).freestream

/-- The corners of the rings on the panels. -/
theorem corners (h : UnsteadyApproach F q p) {k : ℕ} (hk : k < p.numSteps) (r : PanelRef) :
    V3.Tends (fun n => (boundRing (q n) k r).frontLeft) F (boundRing p k r).frontLeft ∧
    V3.Tends (fun n => (boundRing (q n) k r).frontRight) F (boundRing p k r).frontRight ∧
    V3.Tends (fun n => (boundRing (q n) k r).backLeft) F (boundRing p k r).backLeft ∧
    V3.Tends (fun n => (boundRing (q n) k r).backRight) F (boundRing p k r).backRight := by
  have hs := h.step k hk
  have hsh : V3.Tends (fun n => (0.25 : ℝ) • ((q n).deltaTime • ((q n).operatingPointAt k).freestreamVelocity)) F
      ((0.25 : ℝ) • (p.deltaTime • (p.operatingPointAt k).freestreamVelocity)) :=
    V3.Tends.smul tendsto_const_nhds (V3.Tends.smul h.time (h.freestream hk))
  have htr := fun n => hs.trailing n r
  simp only at htr
  refine ⟨hs.frontLeftVertex r, hs.frontRightVertex r, ?_, ?_⟩
  · simp only [boundRing, panelRing, RingVortex.mk', UnsteadySolver.backLeftVertex, htr]
    cases (geometryOf (p.airplanesAt k) r).isTrailingEdge with
    | true => exact ((hs.frontLeftVertex r).add ((hs.backLeft r).sub (hs.frontLeft r))).add hsh
    | false => exact hs.frontLeftVertex _
  · simp only [boundRing, panelRing, RingVortex.mk', UnsteadySolver.backRightVertex, htr]
    cases (geometryOf (p.airplanesAt k) r).isTrailingEdge with
    | true => exact ((hs.frontRightVertex r).add ((hs.backRight r).sub (hs.frontRight r))).add hsh
    | false => exact hs.frontRightVertex _

theorem unit (h : UnsteadyApproach F q p) {k : ℕ} (hk : k < p.numSteps) (r : PanelRef) {x : ι → V3} {x₀ : V3}
    (hx : V3.Tends x F x₀) {g : ℝ} (hcut : ∀ f ∈ ((boundRing p k r).updateStrength g).filaments, f.OffBorder x₀) :
    V3.Tends (fun n => unitRing (q n) k r (x n)) F (unitRing p k r x₀) := by
  obtain ⟨h1, h2, h3, h4⟩ := h.corners hk r
  simp only [RingVortex.filaments, ringFilaments, List.mem_cons, List.not_mem_nil, or_false] at hcut
  have c1 := hcut _ (Or.inl rfl)
  have c2 := hcut _ (Or.inr (Or.inl rfl))
  have c3 := hcut _ (Or.inr (Or.inr (Or.inl rfl)))
  have c4 := hcut _ (Or.inr (Or.inr (Or.inr rfl)))
  unfold unitRing
  simp only [unitVelocity, ringLegs, List.map_cons, List.map_nil, List.sum_cons, List.sum_nil]
  exact (entry_tends h4 h2 hx c1.1 c1.2.1 c1.2.2).add ((entry_tends h2 h1 hx c2.1 c2.2.1 c2.2.2).add
    ((entry_tends h1 h3 hx c3.1 c3.2.1 c3.2.2).add ((entry_tends h3 h4 hx c4.1 c4.2.1 c4.2.2).add (V3.Tends.const 0))))

theorem apparent (h : UnsteadyApproach F q p) {k : ℕ} (hk : k < p.numSteps) (r : PanelRef) :
    V3.Tends (fun n => UnsteadySolver.apparent (q n) k fun as => (geometryOf as r).collocationPoint) F
      (UnsteadySolver.apparent p k fun as => (geometryOf as r).collocationPoint) := by
  unfold UnsteadySolver.apparent
  by_cases h0 : k < 1
  · simp only [if_pos h0]
    exact V3.Tends.const 0
  · simp only [if_neg h0]
    have hc := ((h.step k hk).collocation r).sub ((h.step (k - 1) (by omega)).collocation r)
    have hneg := (V3.Tends.const (F := F) (0 : V3)).sub hc
    simp only [zero_sub] at hneg
    exact V3.Tends.smul (Tendsto.div tendsto_const_nhds h.time h.nonzero) hneg

end UnsteadyApproach

variable {pres : Bool} {s s₁ : UnsteadySolver} {st sm : ℕ → UnsteadySolver} {z z₁ : ι → UnsteadySolver}
  {zt zm : ι → ℕ → UnsteadySolver}

/-- The wake vertices of step `k` tend to those of the limit. -/
def VerticesTend (F : Filter ι) (p : UnsteadyProblem) (s₁ : UnsteadySolver) (z₁ : ι → UnsteadySolver) (k : ℕ) : Prop :=
  ∀ a w W, p.wing? ⟨k, a, w⟩ = some W → 0 < W.numSpanwisePanels → ∀ i ≤ k, ∀ j ≤ W.numSpanwisePanels,
    V3.Tends (fun n => vertexAt ((z₁ n).vertices ⟨k, a, w⟩) i j) F (vertexAt (s₁.vertices ⟨k, a, w⟩) i j)

/-- The strengths of step `k` tend to those of the limit. -/
def StrengthsTend (F : Filter ι) (p : UnsteadyProblem) (q : ι → UnsteadyProblem) (s₁ : UnsteadySolver)
    (z₁ : ι → UnsteadySolver) (k : ℕ) : Prop :=
  ∀ r ∈ panelRefs (p.airplanesAt k), ∃ (g₀ : ℝ) (g : ι → ℝ),
    (s₁.panels k r).ring = some ((boundRing p k r).updateStrength g₀) ∧
    (∀ n, ((z₁ n).panels k r).ring = some ((boundRing (q n) k r).updateStrength (g n))) ∧ Tendsto g F (𝓝 g₀)

/-- The flow of step `k` tends to that of the limit, off the borders of the left-out regions. -/
def FlowTends (F : Filter ι) (s₁ : UnsteadySolver) (z₁ : ι → UnsteadySolver) (k : ℕ) : Prop :=
  ∀ (x : ι → V3) x₀, (∀ f ∈ s₁.filaments k, f.OffBorder x₀) → V3.Tends x F x₀ →
    V3.Tends (fun n => flow (z₁ n) k (x n)) F (flow s₁ k x₀)

/-- No point at which the run computes the velocity is on the border of the left-out region of a filament. -/
def OffBorders (p : UnsteadyProblem) (pres : Bool) (s₁ : UnsteadySolver) : Prop :=
  ∀ k < p.numSteps, ∀ x, EvaluatedAt p pres s₁ k x → ∀ f ∈ s₁.filaments k, f.OffBorder x

namespace UnsteadyApproach

theorem edge_strength (h : UnsteadyApproach F q p) {j k : ℕ} (hj : j < p.numSteps) (hk : k < p.numSteps)
    (hst : StrengthsTend F p q s₁ z₁ j) {a w d : ℕ} {W : Wing} (hW : p.wing? ⟨k, a, w⟩ = some W)
    (hd : d < W.numSpanwisePanels) :
    Tendsto (fun n => edgeStrength (q n) (z₁ n) j ⟨k, a, w⟩ d) F (𝓝 (edgeStrength p s₁ j ⟨k, a, w⟩ d)) := by
  obtain ⟨V, hV, hn, hch⟩ := (sameMotion h.made).wings.wing_at hj hk hW
  obtain ⟨g₀, g, h1, h2, h3⟩ := hst _ ((sameMotion h.made).wings.edge_mem hV (j := d) (by omega))
  rw [hch] at h1 h2
  have e : ∀ n, edgeStrength (q n) (z₁ n) j ⟨k, a, w⟩ d = g n := by
    intro n
    obtain ⟨-, -, -, hc⟩ := h.wing hk n hW (by omega)
    unfold edgeStrength
    simp only
    rw [hc, ringAt_of_panels (h2 n)]
    rfl
  have e₀ : edgeStrength p s₁ j ⟨k, a, w⟩ d = g₀ := by
    unfold edgeStrength
    simp only
    rw [ringAt_of_panels h1]
    rfl
  simp only [e, e₀]
  exact h3

/-- The wake ring at a place. -/
theorem place_ring (h : UnsteadyApproach F q p) {k : ℕ} (hk : k < p.numSteps) (hv : 0 < k → VerticesTend F p s₁ z₁ k)
    (hst : ∀ j < k, StrengthsTend F p q s₁ z₁ j) {d : WakePlace} (hd : d ∈ wakePlaces p k) :
    V3.Tends (fun n => (placeRing (q n) (z₁ n) k d).frontLeft) F (placeRing p s₁ k d).frontLeft ∧
    V3.Tends (fun n => (placeRing (q n) (z₁ n) k d).frontRight) F (placeRing p s₁ k d).frontRight ∧
    V3.Tends (fun n => (placeRing (q n) (z₁ n) k d).backLeft) F (placeRing p s₁ k d).backLeft ∧
    V3.Tends (fun n => (placeRing (q n) (z₁ n) k d).backRight) F (placeRing p s₁ k d).backRight ∧
    Tendsto (fun n => (placeRing (q n) (z₁ n) k d).strength) F (𝓝 (placeRing p s₁ k d).strength) ∧
    Tendsto (fun n => (placeRing (q n) (z₁ n) k d).age) F (𝓝 (placeRing p s₁ k d).age) := by
  obtain ⟨hrow, W, hW, hcol⟩ := mem_wakePlaces.mp hd
  have hpos : 0 < W.numSpanwisePanels := by omega
  have hstr := h.edge_strength (j := k - 1 - d.row) (by omega) hk (hst _ (by omega)) hW hcol
  have hvert := hv (by omega) d.airplane d.wing W hW hpos
  exact ⟨hvert d.row (by omega) d.col (by omega), hvert d.row (by omega) (d.col + 1) (by omega),
    hvert (d.row + 1) (by omega) d.col (by omega), hvert (d.row + 1) (by omega) (d.col + 1) (by omega), hstr,
    h.time.const_mul _⟩

theorem wake_flow (h : UnsteadyApproach F q p) (ht : Trace p pres s s₁ st sm)
    (ht' : ∀ n, Trace (q n) pres (z n) (z₁ n) (zt n) (zm n)) {k : ℕ} (hk : k < p.numSteps)
    (hv : 0 < k → VerticesTend F p s₁ z₁ k) (hst : ∀ j < k, StrengthsTend F p q s₁ z₁ j) {x : ι → V3} {x₀ : V3}
    (hcut : ∀ f ∈ s₁.filaments k, f.OffBorder x₀) (hx : V3.Tends x F x₀) :
    V3.Tends (fun n => wakeFlow (z₁ n) k (x n)) F (wakeFlow s₁ k x₀) := by
  have e : ∀ n, wakeFlow (z₁ n) k (x n) = ((wakePlaces p k).map fun d =>
      ringInduced ((q n).operatingPointAt k).nu (placeRing (q n) (z₁ n) k d).frontRight
        (placeRing (q n) (z₁ n) k d).frontLeft (placeRing (q n) (z₁ n) k d).backLeft
        (placeRing (q n) (z₁ n) k d).backRight (placeRing (q n) (z₁ n) k d).strength
        (placeRing (q n) (z₁ n) k d).age (x n)).sum := by
    intro n
    unfold wakeFlow
    rw [(ht' n).places (by rw [h.numSteps]; exact hk), (ht' n).final_eq.2.2.2.2.2.2]
    simp only [Option.getD_some, List.map_map]
    exact ((h.places hk n).map _).sum_eq
  have e₀ : wakeFlow s₁ k x₀ = ((wakePlaces p k).map fun d =>
      ringInduced (p.operatingPointAt k).nu (placeRing p s₁ k d).frontRight (placeRing p s₁ k d).frontLeft
        (placeRing p s₁ k d).backLeft (placeRing p s₁ k d).backRight (placeRing p s₁ k d).strength
        (placeRing p s₁ k d).age x₀).sum := by
    unfold wakeFlow
    rw [ht.places hk, ht.final_eq.2.2.2.2.2.2]
    simp only [Option.getD_some, List.map_map]
    rfl
  simp only [e, e₀]
  refine V3.Tends.listSum _ fun d hd => ?_
  obtain ⟨h1, h2, h3, h4, h5, h6⟩ := h.place_ring hk hv hst hd
  refine ringInduced_tends h2 h1 h3 h4 hx (h.nu k hk) h5 h6 ?_
  intro f hf
  refine hcut f ?_
  unfold UnsteadySolver.filaments
  rw [ht.places hk, List.mem_append]
  right
  simp only [Option.getD_some, List.mem_flatMap, List.mem_map]
  exact ⟨_, ⟨d, hd, rfl⟩, hf⟩

theorem first_row (h : UnsteadyApproach F q p) (ht : Trace p pres s s₁ st sm)
    (ht' : ∀ n, Trace (q n) pres (z n) (z₁ n) (zt n) (zm n)) {k : ℕ} (hk : k < p.numSteps) (h0 : 0 < k) {a w : ℕ} {W : Wing}
    (hW : p.wing? ⟨k, a, w⟩ = some W) (hn : 0 < W.numSpanwisePanels) {j : ℕ} (hj : j ≤ W.numSpanwisePanels) :
    V3.Tends (fun n => vertexAt ((z₁ n).vertices ⟨k, a, w⟩) 0 j) F (vertexAt (s₁.vertices ⟨k, a, w⟩) 0 j) := by
  obtain ⟨v1, v2⟩ := (sameMotion h.made).wings.edge_vertices ht hk h0 hW
  have hv' : ∀ n, (∀ j < W.numSpanwisePanels, vertexAt ((z₁ n).vertices ⟨k, a, w⟩) 0 j
      = (boundRing (q n) k ⟨a, w, p.chordOf ⟨k, a, w⟩ - 1, j⟩).backLeft) ∧
      vertexAt ((z₁ n).vertices ⟨k, a, w⟩) 0 W.numSpanwisePanels
      = (boundRing (q n) k ⟨a, w, p.chordOf ⟨k, a, w⟩ - 1, W.numSpanwisePanels - 1⟩).backRight := by
    intro n
    obtain ⟨W', hW', e1, e2⟩ := h.wing hk n hW hn
    obtain ⟨u1, u2⟩ := (sameMotion (h.made' n)).wings.edge_vertices (ht' n) (by rw [h.numSteps]; exact hk) h0 hW'
    rw [e1, e2] at u1 u2
    exact ⟨u1, u2 hn⟩
  by_cases hlt : j < W.numSpanwisePanels
  · rw [v1 j hlt]
    simp only [fun n => (hv' n).1 j hlt]
    exact (h.corners hk _).2.2.1
  · obtain rfl : j = W.numSpanwisePanels := by omega
    rw [v2 hn]
    simp only [fun n => (hv' n).2]
    exact (h.corners hk _).2.2.2

/-- The wake vertices of step `k` are corners of wake rings. -/
theorem vertex_corner (ht : Trace p pres s s₁ st sm) {k : ℕ} (hk : k < p.numSteps) (h0 : 0 < k) {a w : ℕ}
    {W : Wing} (hW : p.wing? ⟨k, a, w⟩ = some W) (hn : 0 < W.numSpanwisePanels) {i j : ℕ} (hi : i ≤ k)
    (hj : j ≤ W.numSpanwisePanels) :
    ∃ l v, s₁.wakeArrays[k]? = some l ∧ v ∈ l ∧ v.HasCorner (vertexAt (s₁.vertices ⟨k, a, w⟩) i j) ∧
      (i = 0 → vertexAt (s₁.vertices ⟨k, a, w⟩) i j = v.frontLeft ∨
        vertexAt (s₁.vertices ⟨k, a, w⟩) i j = v.frontRight) := by
  have hmem : ∀ i' j', i' < k → j' < W.numSpanwisePanels →
      placeRing p s₁ k ⟨a, w, i', j'⟩ ∈ (wakePlaces p k).map (placeRing p s₁ k) := fun i' j' h1 h2 =>
    List.mem_map_of_mem (mem_wakePlaces.mpr ⟨h1, W, hW, h2⟩)
  by_cases h1 : i < k
  · by_cases h2 : j < W.numSpanwisePanels
    · exact ⟨_, _, ht.places hk, hmem i j h1 h2, Or.inl rfl, fun _ => Or.inl rfl⟩
    · obtain ⟨j, rfl⟩ : ∃ j', j = j' + 1 := ⟨j - 1, by omega⟩
      exact ⟨_, _, ht.places hk, hmem i j h1 (by omega), Or.inr (Or.inl rfl), fun _ => Or.inr rfl⟩
  · obtain ⟨i, rfl⟩ : ∃ i', i = i' + 1 := ⟨i - 1, by omega⟩
    by_cases h2 : j < W.numSpanwisePanels
    · exact ⟨_, _, ht.places hk, hmem i j (by omega) h2, Or.inr (Or.inr (Or.inl rfl)), fun h => absurd h (by omega)⟩
    · obtain ⟨j, rfl⟩ : ∃ j', j = j' + 1 := ⟨j - 1, by omega⟩
      exact ⟨_, _, ht.places hk, hmem i j (by omega) (by omega), Or.inr (Or.inr (Or.inr rfl)),
        fun h => absurd h (by omega)⟩

theorem next_vertices (h : UnsteadyApproach F q p) (ht : Trace p pres s s₁ st sm)
    (ht' : ∀ n, Trace (q n) pres (z n) (z₁ n) (zt n) (zm n)) (hcut : OffBorders p pres s₁) {k : ℕ} (hk : k + 1 < p.numSteps)
    (hv : 0 < k → VerticesTend F p s₁ z₁ k) (hf : FlowTends F s₁ z₁ k) : VerticesTend F p s₁ z₁ (k + 1) := by
  intro a w W hW hn i hi j hj
  cases i with
  | zero => exact h.first_row ht ht' hk (by omega) hW hn hj
  | succ i =>
    obtain ⟨V, hV, hVn, -⟩ := (sameMotion h.made).wings.wing_at (j := k) (by omega) hk hW
    have hmem : (⟨k, a, w⟩ : WingRef) ∈ wingRefs k (p.airplanesAt k) := mem_wingRefs.mpr ⟨rfl, V, hV⟩
    have hsp : p.spanOf ⟨k, a, w⟩ = V.numSpanwisePanels := by simp [UnsteadyProblem.spanOf, hV]
    have e := ht.later_rows hk hmem (i := i) (by omega) (j := j) (by omega)
    have e' : ∀ n, vertexAt ((z₁ n).vertices ⟨k + 1, a, w⟩) (i + 1) j = (zm n k).convect pres
        (vertexAt ((z₁ n).vertices (if k = 0 then ⟨k + 1, a, w⟩ else ⟨k, a, w⟩)) i j) := by
      intro n
      obtain ⟨V', hV', hVn', -⟩ := h.wing (k := k) (by omega) n hV (by omega)
      have hmem' : (⟨k, a, w⟩ : WingRef) ∈ wingRefs k ((q n).airplanesAt k) := mem_wingRefs.mpr ⟨rfl, V', hV'⟩
      have hsp' : (q n).spanOf ⟨k, a, w⟩ = V'.numSpanwisePanels := by simp [UnsteadyProblem.spanOf, hV']
      exact (ht' n).later_rows (k := k) (by rw [h.numSteps]; exact hk) hmem' (i := i) (by omega) (j := j) (by omega)
    simp only at e e'
    rw [e]
    simp only [e']
    rw [ht.convect h.made.regular (by omega)]
    simp only [fun n => (ht' n).convect (h.made' n).regular (k := k) (by rw [h.numSteps]; omega)]
    have hold : V3.Tends (fun n => vertexAt ((z₁ n).vertices (if k = 0 then ⟨k + 1, a, w⟩ else ⟨k, a, w⟩)) i j) F
        (vertexAt (s₁.vertices (if k = 0 then ⟨k + 1, a, w⟩ else ⟨k, a, w⟩)) i j) := by
      by_cases h0 : k = 0
      · simp only [if_pos h0]
        obtain rfl : i = 0 := by omega
        exact h.first_row ht ht' hk (by omega) hW hn hj
      · simp only [if_neg h0]
        exact hv (by omega) a w V hV (by omega) i (by omega) j (by omega)
    refine hold.add (V3.Tends.smul h.time ?_)
    cases pres with
    | true =>
      simp only [if_true]
      exact h.freestream (by omega)
    | false =>
      simp only [Bool.false_eq_true, if_false]
      refine hf _ _ (hcut k (by omega) _ ?_) hold
      by_cases h0 : k = 0
      · simp only [if_pos h0]
        obtain rfl : i = 0 := by omega
        obtain ⟨l, v, c1, c2, -, c3⟩ := vertex_corner ht hk (by omega) hW hn (i := 0) (by omega) hj
        subst h0
        exact .firstWake rfl rfl c1 c2 (c3 rfl)
      · simp only [if_neg h0]
        obtain ⟨l, v, c1, c2, c3, -⟩ := vertex_corner ht (k := k) (by omega) (by omega) hV (by omega) (i := i)
          (by omega) (j := j) (by omega)
        exact .wake rfl c1 c2 c3

/-- A bound ring's filaments are filaments of the step. -/
theorem bound_mem (ht : Trace p pres s s₁ st sm) {k : ℕ} {r : PanelRef} (hr : r ∈ panelRefs (p.airplanesAt k))
    {v : RingVortex} (hv : (s₁.panels k r).ring = some v) {f : Seg} (hf : f ∈ v.filaments) : f ∈ s₁.filaments k := by
  unfold UnsteadySolver.filaments
  rw [ht.final_eq.2.2.2.2.2.2, List.mem_append]
  left
  rw [List.mem_flatMap]
  exact ⟨r, hr, by rw [hv]; exact hf⟩

theorem matrix (h : UnsteadyApproach F q p) (ht : Trace p pres s s₁ st sm) (hcut : OffBorders p pres s₁)
    (harea : ∀ k < p.numSteps, ∀ r d, panelAt (p.airplanesAt k) r = some d → 0 < d.area) {k : ℕ} (hk : k < p.numSteps) :
    ∀ i ∈ panelRefs (p.airplanesAt k), ∀ j ∈ panelRefs (p.airplanesAt k),
      Tendsto (fun n => (unitRing (q n) k j (geometryOf ((q n).airplanesAt k) i).collocationPoint).dot
        (geometryOf ((q n).airplanesAt k) i).unitNormal) F
        (𝓝 ((unitRing p k j (geometryOf (p.airplanesAt k) i).collocationPoint).dot
          (geometryOf (p.airplanesAt k) i).unitNormal)) := by
  intro i hi j hj
  obtain ⟨d, hd⟩ := (mem_panelRefs _ _).mp hi
  obtain ⟨g, hg⟩ := ht.rings hk hj
  have hs := h.step k hk
  refine V3.Tends.dot (h.unit hk j (hs.collocation i) (g := g) ?_) (hs.normal ?_)
  · intro f hf
    refine hcut k hk _ ?_ f (bound_mem ht hj hg hf)
    simp only [geometryOf_eq hd]
    exact .collocation hd
  · simp only [geometryOf_eq hd]
    exact harea k hk i d hd

theorem strengths (h : UnsteadyApproach F q p) (ht : Trace p pres s s₁ st sm)
    (ht' : ∀ n, Trace (q n) pres (z n) (z₁ n) (zt n) (zm n)) (hcut : OffBorders p pres s₁)
    (harea : ∀ k < p.numSteps, ∀ r d, panelAt (p.airplanesAt k) r = some d → 0 < d.area) {k : ℕ} (hk : k < p.numSteps)
    (hw : ∀ (x : ι → V3) x₀, (∀ f ∈ s₁.filaments k, f.OffBorder x₀) → V3.Tends x F x₀ →
      V3.Tends (fun n => wakeFlow (z₁ n) k (x n)) F (wakeFlow s₁ k x₀)) :
    StrengthsTend F p q s₁ z₁ k ∧ FlowTends F s₁ z₁ k := by
  have hk' : ∀ n, k < (q n).numSteps := fun n => by rw [h.numSteps]; exact hk
  obtain ⟨Γ₀, hΓ₀, hring₀, hflow₀⟩ := ht.values h.made.regular hk
  choose Γ hΓ hring hflow using fun n => (ht' n).values (h.made' n).regular (hk' n)
  have hs := h.step k hk
  have hA := h.matrix ht hcut harea hk
  have hb : ∀ i ∈ panelRefs (p.airplanesAt k), Tendsto (fun n => rhsAt (q n) (z₁ n) k i) F (𝓝 (rhsAt p s₁ k i)) := by
    intro i hi
    obtain ⟨d, hd⟩ := (mem_panelRefs _ _).mp hi
    unfold rhsAt
    refine (V3.Tends.dot (((hw _ _ (hcut k hk _ ?_) (hs.collocation i)).add (h.freestream hk)).add (h.apparent hk i))
      (hs.normal ?_)).neg
    · simp only [geometryOf_eq hd]
      exact .collocation hd
    · simp only [geometryOf_eq hd]
      exact harea k hk i d hd
  have hΓt : ∀ r ∈ panelRefs (p.airplanesAt k), Tendsto (fun n => Γ n r) F (𝓝 (Γ₀ r)) := by
    refine solve_tendsto' hA hb hΓ₀ (Filter.Eventually.of_forall fun n => ?_)
    have := hΓ n
    unfold wingMatrix at this
    rwa [h.refs hk n] at this
  refine ⟨?_, ?_⟩
  · intro r hr
    exact ⟨Γ₀ r, fun n => Γ n r, hring₀ r hr, fun n => hring n r (by rw [h.refs hk n]; exact hr), hΓt r hr⟩
  · intro x x₀ hc hx
    have hbound : V3.Tends (fun n => boundFlow (z₁ n) k (x n)) F (boundFlow s₁ k x₀) := by
      rw [hflow₀]
      simp only [hflow, h.refs hk]
      refine V3.Tends.listSum _ fun r hr => ?_
      exact V3.Tends.smul (hΓt r hr) (h.unit hk r hx (g := Γ₀ r) fun f hf => hc f (bound_mem ht hr (hring₀ r hr) hf))
    unfold flow
    rw [ht.final_eq.2.2.2.2.2.2]
    simp only [fun n => (ht' n).final_eq.2.2.2.2.2.2]
    exact (hbound.add (hw x x₀ hc hx)).add (h.freestream hk)

/-- Wake, strengths and flow of every step. -/
theorem steps (h : UnsteadyApproach F q p) (ht : Trace p pres s s₁ st sm)
    (ht' : ∀ n, Trace (q n) pres (z n) (z₁ n) (zt n) (zm n)) (hcut : OffBorders p pres s₁)
    (harea : ∀ k < p.numSteps, ∀ r d, panelAt (p.airplanesAt k) r = some d → 0 < d.area) :
    ∀ k < p.numSteps, (0 < k → VerticesTend F p s₁ z₁ k) ∧ StrengthsTend F p q s₁ z₁ k ∧ FlowTends F s₁ z₁ k := by
  intro k
  induction k using Nat.strong_induction_on with
  | _ k ih =>
    intro hk
    have hv : 0 < k → VerticesTend F p s₁ z₁ k := by
      intro h0
      obtain ⟨m, rfl⟩ : ∃ m, k = m + 1 := ⟨k - 1, by omega⟩
      obtain ⟨h1, -, h3⟩ := ih m (by omega) (by omega)
      exact h.next_vertices ht ht' hcut hk h1 h3
    exact ⟨hv, h.strengths ht ht' hcut harea hk fun x x₀ hc hx =>
      h.wake_flow ht ht' hk hv (fun j hj => (ih j hj (by omega)).2.1) hc hx⟩

/-- Nearly all of the runs exist. -/
theorem runs_exist (h : UnsteadyApproach F q p) (ht : Trace p pres s s₁ st sm) (hcut : OffBorders p pres s₁)
    (harea : ∀ k < p.numSteps, ∀ r d, panelAt (p.airplanesAt k) r = some d → 0 < d.area)
    (hz : ∀ n, Reached (q n) (z n)) (pres' : Bool) (sl : ι → Bool) :
    ∀ᶠ n in F, ∃ z', (z n).run pres' (sl n) = .ok z' := by
  have hall : ∀ᶠ n in F, ∀ k < p.numSteps, ∃ Γ : PanelRef → ℝ,
      linalgSolve (wingMatrix (q n) k) ((panelRefs (p.airplanesAt k)).map fun _ => 0)
        = .ok ((panelRefs (p.airplanesAt k)).map Γ) := by
    have hfin : ∀ᶠ n in F, ∀ k ∈ Finset.range p.numSteps, ∃ Γ : PanelRef → ℝ,
        linalgSolve (wingMatrix (q n) k) ((panelRefs (p.airplanesAt k)).map fun _ => 0)
          = .ok ((panelRefs (p.airplanesAt k)).map Γ) := by
      rw [Filter.eventually_all_finset]
      intro k hk
      rw [Finset.mem_range] at hk
      obtain ⟨Γ₀, hΓ₀, -⟩ := ht.values h.made.regular hk
      have := solve_near' (panelRefs_nodup (p.airplanesAt k)) (h.matrix ht hcut harea hk) hΓ₀ fun _ _ => 0
      filter_upwards [this] with n hn
      unfold wingMatrix
      rw [h.refs hk n]
      exact hn
    exact hfin.mono fun n hn k hk => hn k (Finset.mem_range.mpr hk)
  filter_upwards [hall] with n hn
  refine C40_run_finishes (h.made' n) (hz n) ?_ pres' (sl n)
  intro k hk b hb
  rw [h.numSteps] at hk
  obtain ⟨Γ, hΓ⟩ := hn k hk
  unfold wingMatrix at hΓ ⊢
  rw [h.refs hk n] at hΓ hb ⊢
  exact linalgSolve_all _ _ hΓ b hb

/-! ## Loads -/

theorem strength_at (h : UnsteadyApproach F q p) {j : ℕ} (hj : j < p.numSteps) (hst : StrengthsTend F p q s₁ z₁ j)
    (r : PanelRef) : Tendsto (fun n => strengthAt ((q n).airplanesAt j) ((z₁ n).panels j) r) F
      (𝓝 (strengthAt (p.airplanesAt j) (s₁.panels j) r)) := by
  cases hp : panelAt (p.airplanesAt j) r with
  | none =>
    have hn : ∀ n, panelAt ((q n).airplanesAt j) r = none := by
      intro n
      cases hq : panelAt ((q n).airplanesAt j) r with
      | none => rfl
      | some d =>
        obtain ⟨d', hd'⟩ := ((h.step j hj).panels n r).mpr ⟨d, hq⟩
        simp only at hd'
        rw [hp] at hd'; cases hd'
    have hz : ∀ n, strengthAt ((q n).airplanesAt j) ((z₁ n).panels j) r = 0 := fun n => strengthAt_none (hn n)
    rw [strengthAt_none hp]
    simp only [hz]
    exact tendsto_const_nhds
  | some d =>
    obtain ⟨g₀, g, h1, h2, h3⟩ := hst r ((mem_panelRefs _ _).mpr ⟨d, hp⟩)
    have hn : ∀ n, strengthAt ((q n).airplanesAt j) ((z₁ n).panels j) r = g n := by
      intro n
      obtain ⟨d', hd'⟩ := ((h.step j hj).panels n r).mp ⟨d, hp⟩
      rw [strengthAt_some hd', h2 n]
      rfl
    rw [strengthAt_some hp, h1]
    simp only [hn]
    exact h3

theorem point {k : ℕ} (hst : StrengthsTend F p q s₁ z₁ k)
    {r : PanelRef} (hr : r ∈ panelRefs (p.airplanesAt k)) {mid : RingVortex → V3}
    (hu : ∀ v : RingVortex, ∀ g, mid (v.updateStrength g) = mid v)
    (hmid : V3.Tends (fun n => mid (boundRing (q n) k r)) F (mid (boundRing p k r))) :
    V3.Tends (fun n => ringPoint (z₁ n) k r mid) F (ringPoint s₁ k r mid) := by
  obtain ⟨g₀, g, h1, h2, -⟩ := hst r hr
  unfold ringPoint
  simp only [h1, h2, Option.map_some, Option.getD_some, hu]
  exact hmid

theorem relative (h : UnsteadyApproach F q p) (ht : Trace p pres s s₁ st sm)
    (ht' : ∀ n, Trace (q n) pres (z n) (z₁ n) (zt n) (zm n))
    (hst : ∀ k < p.numSteps, StrengthsTend F p q s₁ z₁ k ∧ FlowTends F s₁ z₁ k) {k : ℕ} (hk : k < p.numSteps)
    {r : PanelRef} (hr : r ∈ panelRefs (p.airplanesAt k)) {mid : RingVortex → V3}
    (hu : ∀ v : RingVortex, ∀ g, mid (v.updateStrength g) = mid v)
    (hmid : ∀ j < p.numSteps, V3.Tends (fun n => mid (boundRing (q n) j r)) F (mid (boundRing p j r)))
    (hcut : ∀ f ∈ s₁.filaments k, f.OffBorder (ringPoint s₁ k r mid)) :
    V3.Tends (fun n => relativeFlow (z₁ n) k r mid) F (relativeFlow s₁ k r mid) := by
  have hpt := point (hst k hk).1 hr hu (hmid k hk)
  unfold relativeFlow
  refine ((hst k hk).2 _ _ hcut hpt).sub ?_
  cases k with
  | zero =>
    simp only [pointVelocity]
    exact V3.Tends.const 0
  | succ k =>
    simp only [pointVelocity]
    rw [ht.final_eq.2.2.2.2.2.2]
    simp only [fun n => (ht' n).final_eq.2.2.2.2.2.2]
    have hk0 : k < p.numSteps := by omega
    have hr' : r ∈ panelRefs (p.airplanesAt k) := by
      rw [panelRefs_same h.made.regular hk0 hk]
      exact hr
    exact V3.Tends.smul (Tendsto.div tendsto_const_nhds h.time h.nonzero)
      (hpt.sub (point (hst k hk0).1 hr' hu (hmid k hk0)))

theorem kuttaJoukowski_tends {d g : ι → ℝ} {d₀ g₀ : ℝ} {u x : ι → V3} {u₀ x₀ : V3} (hd : Tendsto d F (𝓝 d₀))
    (hg : Tendsto g F (𝓝 g₀)) (hu : V3.Tends u F u₀) (hx : V3.Tends x F x₀) :
    V3.Tends (fun n => kuttaJoukowski (d n) (g n) (u n) (x n)) F (kuttaJoukowski d₀ g₀ u₀ x₀) :=
  V3.Tends.smul (hd.mul hg) (hu.cross hx)

theorem panel_loads (h : UnsteadyApproach F q p) {sl : Bool} {sl' : ι → Bool} (hr : Reached p s)
    (hz : ∀ n, Reached (q n) (z n)) (hrun : s.run pres sl = .ok s₁) (hrun' : ∀ n, (z n).run pres (sl' n) = .ok (z₁ n))
    (hcut : OffBorders p pres s₁) {k : ℕ} (hk : k < p.numSteps) (hfirst : p.firstResultsStep ≤ (k : ℤ)) (r : PanelRef)
    (d : Panel) (hd : panelAt (p.airplanesAt k) r = some d) :
    ∃ (L : PanelLoads) (L' : ι → PanelLoads), (s₁.panels k r).loads = some L ∧
      (∀ n, ((z₁ n).panels k r).loads = some (L' n)) ∧
      V3.Tends (fun n => (L' n).forceGeometry) F L.forceGeometry ∧
      V3.Tends (fun n => (L' n).momentGeometry) F L.momentGeometry := by
  obtain ⟨st, sm, ht⟩ := hr.trace h.made hrun
  choose zt zm ht' using fun n => (hz n).trace (h.made' n) (hrun' n)
  have harea := fun k hk r d hd => (C91_unsteady h.made hr hrun k hk r d hd).1
  have hall := fun k hk => (h.steps ht ht' hcut harea k hk).2
  have hs := h.step k hk
  have hmem : r ∈ panelRefs (p.airplanesAt k) := (mem_panelRefs _ _).mpr ⟨d, hd⟩
  obtain ⟨A, w, hA, -, -⟩ := panelAt_cell hd
  obtain ⟨B, hB, hBref, -⟩ := hs.references _ A hA
  choose d' hd' using fun n => (hs.panels n r).mp ⟨d, hd⟩
  obtain ⟨L, v, Fo, Lf, R, U, h1, h2, h3, h4, h5, h6, h7, h8⟩ := C35_unsteady h.made hr hrun k hk hfirst r d A hd hA
  choose L' v' Fo' Lf' R' U' g1 g2 g3 g4 g5 g6 g7 g8 using fun n => C35_unsteady (h.made' n) (hz n) (hrun' n) k
    (by rw [h.numSteps]; exact hk) (by rw [h.first]; exact hfirst) r (d' n) (B n) (hd' n) (hB n)
  obtain ⟨e₀, e, hv1, hv2, he⟩ := (hall k hk).1 r hmem
  rw [h2, Option.some.injEq] at hv1
  have hv2' : ∀ n, v' n = (boundRing (q n) k r).updateStrength (e n) := fun n => by
    have := hv2 n
    rw [g2 n, Option.some.injEq] at this
    exact this
  have hnet := h.strength_at hk (hall k hk).1
  have n1 : Tendsto (fun n => netFront ((q n).airplanesAt k) ((z₁ n).panels k) r) F
      (𝓝 (netFront (p.airplanesAt k) (s₁.panels k) r)) := by
    unfold netFront
    by_cases h0 : r.row = 0
    · simp only [h0, if_true]
      exact (hnet r).sub tendsto_const_nhds
    · simp only [h0, if_false]
      exact (hnet r).sub (hnet _)
  have n2 : Tendsto (fun n => netLeft ((q n).airplanesAt k) ((z₁ n).panels k) r) F
      (𝓝 (netLeft (p.airplanesAt k) (s₁.panels k) r)) := by
    unfold netLeft
    by_cases h0 : r.col = 0
    · simp only [h0, if_true]
      exact (hnet r).sub tendsto_const_nhds
    · simp only [h0, if_false]
      exact (hnet r).sub (hnet _)
  have n3 : Tendsto (fun n => netRight ((q n).airplanesAt k) ((z₁ n).panels k) r) F
      (𝓝 (netRight (p.airplanesAt k) (s₁.panels k) r)) := by
    unfold netRight
    exact (hnet r).sub (hnet _)
  have hprev : Tendsto (fun n => previousStrength (z₁ n) k r) F (𝓝 (previousStrength s₁ k r)) := by
    cases k with
    | zero => exact tendsto_const_nhds
    | succ k =>
      simp only [previousStrength]
      rw [ht.final_eq.2.2.2.2.2.2]
      simp only [fun n => (ht' n).final_eq.2.2.2.2.2.2]
      exact h.strength_at (by omega) (hall k (by omega)).1 r
  have hfm : ∀ j < p.numSteps, V3.Tends (fun n => (boundRing (q n) j r).frontMiddle) F (boundRing p j r).frontMiddle := by
    intro j hj
    obtain ⟨c1, c2, c3, c4⟩ := h.corners hj r
    exact V3.Tends.smul tendsto_const_nhds (c2.add c1)
  have hlm : ∀ j < p.numSteps, V3.Tends (fun n => (boundRing (q n) j r).leftMiddle) F (boundRing p j r).leftMiddle := by
    intro j hj
    obtain ⟨c1, c2, c3, c4⟩ := h.corners hj r
    exact V3.Tends.smul tendsto_const_nhds (c1.add c3)
  have hrm : ∀ j < p.numSteps, V3.Tends (fun n => (boundRing (q n) j r).rightMiddle) F (boundRing p j r).rightMiddle := by
    intro j hj
    obtain ⟨c1, c2, c3, c4⟩ := h.corners hj r
    exact V3.Tends.smul tendsto_const_nhds (c4.add c2)
  have hpoint : ∀ mid : RingVortex → V3, ringPoint s₁ k r mid = mid v := by
    intro mid
    unfold ringPoint
    rw [h2]
    rfl
  have r1 := h.relative ht ht' hall hk hmem (mid := RingVortex.frontMiddle) (fun _ _ => rfl) hfm
    (hcut k hk _ (.middle hd h2 (by rw [hpoint]; exact Or.inl rfl)))
  have r2 := h.relative ht ht' hall hk hmem (mid := RingVortex.leftMiddle) (fun _ _ => rfl) hlm
    (hcut k hk _ (.middle hd h2 (by rw [hpoint]; exact Or.inr (Or.inl rfl))))
  have r3 := h.relative ht ht' hall hk hmem (mid := RingVortex.rightMiddle) (fun _ _ => rfl) hrm
    (hcut k hk _ (.middle hd h2 (by rw [hpoint]; exact Or.inr (Or.inr rfl))))
  obtain ⟨c1, c2, c3, c4⟩ := h.corners hk r
  have hF : V3.Tends Fo' F Fo := by
    have := kuttaJoukowski_tends hs.density n1 r1 (c1.sub c2)
    rw [h3, hv1]
    refine this.congr' (Filter.Eventually.of_forall fun n => ?_)
    rw [g3 n, hv2' n]
    rfl
  have hL : V3.Tends Lf' F Lf := by
    have := kuttaJoukowski_tends hs.density n2 r2 (c3.sub c1)
    rw [h4, hv1]
    refine this.congr' (Filter.Eventually.of_forall fun n => ?_)
    rw [g4 n, hv2' n]
    rfl
  have hR : V3.Tends R' F R := by
    have := kuttaJoukowski_tends hs.density n3 r3 (c2.sub c4)
    rw [h5, hv1]
    refine this.congr' (Filter.Eventually.of_forall fun n => ?_)
    rw [g5 n, hv2' n]
    rfl
  have hcol : V3.Tends (fun n => (d' n).collocationPoint) F d.collocationPoint := by
    have := hs.collocation r
    simp only [geometryOf_eq hd, fun n => geometryOf_eq (hd' n)] at this
    exact this
  have hnorm : V3.Tends (fun n => (d' n).unitNormal) F d.unitNormal := by
    have := hs.normal (r := r) (by simp only [geometryOf_eq hd]; exact harea k hk r d hd)
    simp only [geometryOf_eq hd, fun n => geometryOf_eq (hd' n)] at this
    exact this
  have harea' : Tendsto (fun n => (d' n).area) F (𝓝 d.area) := by
    have hc := ((hs.frontRight r).sub (hs.backLeft r)).cross ((hs.frontLeft r).sub (hs.backRight r))
    simp only [geometryOf_eq hd, fun n => geometryOf_eq (hd' n)] at hc
    exact hc.norm.div_const 2
  have hU : V3.Tends U' F U := by
    have : V3.Tends (fun n => (((q n).operatingPointAt k).density * (e n - previousStrength (z₁ n) k r) * (d' n).area
        / (q n).deltaTime) • (d' n).unitNormal) F _ :=
      V3.Tends.smul (((hs.density.mul (he.sub hprev)).mul harea').div h.time h.nonzero) hnorm
    rw [h6, hv1]
    refine this.congr' (Filter.Eventually.of_forall fun n => ?_)
    rw [g6 n, hv2' n]
    rfl
  refine ⟨L, L', h1, g1, ?_, ?_⟩
  · rw [h7]
    simp only [g7]
    exact ((hF.add hL).add hR).add hU
  · rw [h8, hv1]
    simp only [g8, hv2']
    exact (((((hfm k hk).sub hBref).cross hF).add (((hlm k hk).sub hBref).cross hL)).add
      (((hrm k hk).sub hBref).cross hR)).add ((hcol.sub hBref).cross hU)

/-- Loads in wind axes and totals. -/
theorem loads (h : UnsteadyApproach F q p) {sl : Bool} {sl' : ι → Bool} (hr : Reached p s)
    (hz : ∀ n, Reached (q n) (z n)) (hrun : s.run pres sl = .ok s₁) (hrun' : ∀ n, (z n).run pres (sl' n) = .ok (z₁ n))
    (hcut : OffBorders p pres s₁) {k : ℕ} (hk : k < p.numSteps) (hfirst : p.firstResultsStep ≤ (k : ℤ)) (i : ℕ)
    (A : Airplane) (hA : (p.airplanesAt k)[i]? = some A) :
    ∃ (T : AirplaneLoads) (T' : ι → AirplaneLoads), (s₁.loads k)[i]? = some T ∧
      (∀ n, ((z₁ n).loads k)[i]? = some (T' n)) ∧
      V3.Tends (fun n => (T' n).forceWind) F T.forceWind ∧ V3.Tends (fun n => (T' n).momentWind) F T.momentWind ∧
      ((p.operatingPointAt k).density ≠ 0 → (p.operatingPointAt k).velocity ≠ 0 → A.sRef ≠ 0 → A.cRef ≠ 0 → A.bRef ≠ 0 →
        V3.Tends (fun n => (T' n).forceCoefficients) F T.forceCoefficients ∧
        V3.Tends (fun n => (T' n).momentCoefficients) F T.momentCoefficients) ∧
      (∀ r d, panelAt (p.airplanesAt k) r = some d → r.airplane = i →
        ∃ (L : PanelLoads) (L' : ι → PanelLoads), (s₁.panels k r).loads = some L ∧
          (∀ n, ((z₁ n).panels k r).loads = some (L' n)) ∧
          V3.Tends (fun n => (L' n).forceWind) F L.forceWind ∧ V3.Tends (fun n => (L' n).momentWind) F L.momentWind) := by
  have hs := h.step k hk
  obtain ⟨B, hB, -, hbs, hbc, hbb⟩ := hs.references _ A hA
  obtain ⟨T, Q, t1, t2, t3, t4, t5, t6⟩ := C37_unsteady h.made hr hrun k hk hfirst i A hA
  choose T' Q' u1 u2 u3 u4 u5 u6 using fun n => C37_unsteady (h.made' n) (hz n) (hrun' n) k
    (by rw [h.numSteps]; exact hk) (by rw [h.first]; exact hfirst) i (B n) (hB n)
  simp only [h.refs hk] at u2 u3 u4
  have hpan : ∀ r ∈ (panelRefs (p.airplanesAt k)).filter (fun r => r.airplane = i),
      V3.Tends (fun n => (Q' n r).forceWind) F (Q r).forceWind ∧
      V3.Tends (fun n => (Q' n r).momentWind) F (Q r).momentWind := by
    intro r hrm
    obtain ⟨d, hd⟩ := (mem_panelRefs _ _).mp (List.mem_filter.mp hrm).1
    obtain ⟨L, L', l1, l2, l3, l4⟩ := h.panel_loads hr hz hrun hrun' hcut hk hfirst r d hd
    obtain ⟨q1, q2, q3⟩ := t2 r hrm
    rw [l1, Option.some.injEq] at q1
    have e : ∀ n, L' n = Q' n r := fun n => Option.some.inj ((l2 n).symm.trans (u2 n r hrm).1)
    have hrot := hs.rotation.transpose
    rw [q2, q3]
    simp only [fun n => (u2 n r hrm).2.1, fun n => (u2 n r hrm).2.2]
    subst q1
    simp only [e] at l3 l4
    exact ⟨hrot.mulVec l3, hrot.mulVec l4⟩
  have hF : V3.Tends (fun n => (T' n).forceWind) F T.forceWind := by
    rw [t3]
    simp only [u3]
    exact V3.Tends.listSum _ fun r hr => (hpan r hr).1
  have hM : V3.Tends (fun n => (T' n).momentWind) F T.momentWind := by
    rw [t4]
    simp only [u4]
    exact V3.Tends.listSum _ fun r hr => (hpan r hr).2
  refine ⟨T, T', t1, u1, hF, hM, ?_, ?_⟩
  · intro n1 n2 n3 n4 n5
    have hq : Tendsto (fun n => 0.5 * ((q n).operatingPointAt k).density * ((q n).operatingPointAt k).velocity ^ 2) F
        (𝓝 (0.5 * (p.operatingPointAt k).density * (p.operatingPointAt k).velocity ^ 2)) :=
      (hs.density.const_mul 0.5).mul (hs.velocity.pow 2)
    have hq0 : 0.5 * (p.operatingPointAt k).density * (p.operatingPointAt k).velocity ^ 2 ≠ 0 := by positivity
    have hs' := hq.mul hbs
    have hs0 := mul_ne_zero hq0 n3
    rw [t5, t6]
    simp only [u5, u6]
    exact ⟨⟨hF.1.neg.div hs' hs0, hF.2.1.div hs' hs0, hF.2.2.neg.div hs' hs0⟩,
      ⟨hM.1.div (hs'.mul hbb) (mul_ne_zero hs0 n5), hM.2.1.div (hs'.mul hbc) (mul_ne_zero hs0 n4),
        hM.2.2.div (hs'.mul hbb) (mul_ne_zero hs0 n5)⟩⟩
  · intro r d hd hri
    have hrm : r ∈ (panelRefs (p.airplanesAt k)).filter (fun r => r.airplane = i) :=
      List.mem_filter.mpr ⟨(mem_panelRefs _ _).mpr ⟨d, hd⟩, by simp [hri]⟩
    exact ⟨Q r, fun n => Q' n r, (t2 r hrm).1, fun n => (u2 n r hrm).1, hpan r hrm⟩

/-- Nearly all runs are near the run of the limit, step by step. -/
theorem near (h : UnsteadyApproach F q p) {sl : Bool} {sl' : ι → Bool} (hr : Reached p s)
    (hz : ∀ n, Reached (q n) (z n)) (hrun : s.run pres sl = .ok s₁) (hrun' : ∀ n, (z n).run pres (sl' n) = .ok (z₁ n))
    (hcut : OffBorders p pres s₁) {ε : ℝ} (hε : 0 < ε) : ∀ᶠ n in F, ∀ k < p.numSteps, StepNear p ε s₁ (z₁ n) k := by
  have hfin : ∀ᶠ n in F, ∀ k ∈ Finset.range p.numSteps, StepNear p ε s₁ (z₁ n) k := by
    rw [Filter.eventually_all_finset]
    intro k hk
    rw [Finset.mem_range] at hk
    obtain ⟨st, sm, ht⟩ := hr.trace h.made hrun
    choose zt zm ht' using fun n => (hz n).trace (h.made' n) (hrun' n)
    have harea := fun k hk r d hd => (C91_unsteady h.made hr hrun k hk r d hd).1
    have hall := h.steps ht ht' hcut harea
    have num : ∀ {f : ι → ℝ} {c : ℝ}, Tendsto f F (𝓝 c) → ∀ᶠ n in F, |f n - c| < ε := by
      intro f c hf
      exact (Metric.tendsto_nhds.mp hf ε hε).mono fun n hn => by rwa [Real.dist_eq] at hn
    have h1 : ∀ᶠ n in F, ∀ r ∈ panelRefs (p.airplanesAt k), ∃ v v', (s₁.panels k r).ring = some v ∧
        ((z₁ n).panels k r).ring = some v' ∧ (v'.frontLeft - v.frontLeft).norm < ε ∧
        (v'.frontRight - v.frontRight).norm < ε ∧ (v'.backLeft - v.backLeft).norm < ε ∧
        (v'.backRight - v.backRight).norm < ε ∧ |v'.strength - v.strength| < ε := by
      apply eventually_list
      intro r hr
      obtain ⟨g₀, g, e1, e2, e3⟩ := (hall k hk).2.1 r hr
      obtain ⟨c1, c2, c3, c4⟩ := h.corners hk r
      filter_upwards [num e3, c1.close hε, c2.close hε, c3.close hε, c4.close hε] with n f0 f1 f2 f3 f4
      exact ⟨_, _, e1, e2 n, f1, f2, f3, f4, f0⟩
    have h2 : ∀ᶠ n in F, ∀ d ∈ wakePlaces p k, ∃ w w', wakeRecord s₁ k d = some w ∧ wakeRecord (z₁ n) k d = some w' ∧
        (w'.frontLeft - w.frontLeft).norm < ε ∧ (w'.frontRight - w.frontRight).norm < ε ∧
        (w'.backLeft - w.backLeft).norm < ε ∧ (w'.backRight - w.backRight).norm < ε ∧ |w'.strength - w.strength| < ε ∧
        |w'.age - w.age| < ε := by
      apply eventually_list
      intro d hd
      obtain ⟨c1, c2, c3, c4, c5, c6⟩ := h.place_ring hk (hall k hk).1 (fun j hj => (hall j (by omega)).2.1) hd
      filter_upwards [c1.close hε, c2.close hε, c3.close hε, c4.close hε, num c5, num c6] with n f1 f2 f3 f4 f5 f6
      exact ⟨_, _, ht.wakeRecord hk hd, (ht' n).wakeRecord (by rw [h.numSteps]; exact hk)
        ((h.places_mem hk n d).mpr hd), f1, f2, f3, f4, f5, f6⟩
    have h3 : p.firstResultsStep ≤ k → ∀ᶠ n in F, ∀ r ∈ panelRefs (p.airplanesAt k), ∃ L L',
        (s₁.panels k r).loads = some L ∧ ((z₁ n).panels k r).loads = some L' ∧
        (L'.forceWind - L.forceWind).norm < ε ∧ (L'.momentWind - L.momentWind).norm < ε := by
      intro hf
      apply eventually_list
      intro r hrm
      obtain ⟨d, hd⟩ := (mem_panelRefs _ _).mp hrm
      obtain ⟨A, w, hA, -, -⟩ := panelAt_cell hd
      obtain ⟨-, -, -, -, -, -, -, hl⟩ := h.loads hr hz hrun hrun' hcut hk hf _ A hA
      obtain ⟨L, L', l1, l2, l3, l4⟩ := hl r d hd rfl
      filter_upwards [l3.close hε, l4.close hε] with n f1 f2
      exact ⟨L, L' n, l1, l2 n, f1, f2⟩
    have h4 : p.firstResultsStep ≤ k → ∀ᶠ n in F, ∀ a ∈ List.range (p.airplanesAt k).length, ∀ A,
        (p.airplanesAt k)[a]? = some A → ∃ L L' : AirplaneLoads,
        (s₁.loads k)[a]? = some L ∧ ((z₁ n).loads k)[a]? = some L' ∧
        (L'.forceWind - L.forceWind).norm < ε ∧ (L'.momentWind - L.momentWind).norm < ε ∧
        ((p.operatingPointAt k).density ≠ 0 → (p.operatingPointAt k).velocity ≠ 0 → A.sRef ≠ 0 → A.cRef ≠ 0 →
          A.bRef ≠ 0 → (L'.forceCoefficients - L.forceCoefficients).norm < ε ∧
          (L'.momentCoefficients - L.momentCoefficients).norm < ε) := by
      intro hf
      apply eventually_list
      intro a ha
      rw [List.mem_range] at ha
      have hA : (p.airplanesAt k)[a]? = some (p.airplanesAt k)[a] := List.getElem?_eq_getElem ha
      set A := (p.airplanesAt k)[a]
      obtain ⟨T, T', t1, t2, t3, t4, t5, -⟩ := h.loads hr hz hrun hrun' hcut hk hf a A hA
      by_cases hc : (p.operatingPointAt k).density ≠ 0 ∧ (p.operatingPointAt k).velocity ≠ 0 ∧ A.sRef ≠ 0 ∧
          A.cRef ≠ 0 ∧ A.bRef ≠ 0
      · obtain ⟨n1, n2, n3, n4, n5⟩ := hc
        obtain ⟨t6, t7⟩ := t5 n1 n2 n3 n4 n5
        filter_upwards [t3.close hε, t4.close hε, t6.close hε, t7.close hε] with n f1 f2 f3 f4 A' hA'
        rw [hA, Option.some.injEq] at hA'
        subst hA'
        exact ⟨T, T' n, t1, t2 n, f1, f2, fun _ _ _ _ _ => ⟨f3, f4⟩⟩
      · filter_upwards [t3.close hε, t4.close hε] with n f1 f2 A' hA'
        rw [hA, Option.some.injEq] at hA'
        subst hA'
        exact ⟨T, T' n, t1, t2 n, f1, f2, fun n1 n2 n3 n4 n5 => absurd ⟨n1, n2, n3, n4, n5⟩ hc⟩
    have h3' : ∀ᶠ n in F, p.firstResultsStep ≤ k → ∀ r ∈ panelRefs (p.airplanesAt k), ∃ L L',
        (s₁.panels k r).loads = some L ∧ ((z₁ n).panels k r).loads = some L' ∧
        (L'.forceWind - L.forceWind).norm < ε ∧ (L'.momentWind - L.momentWind).norm < ε := by
      by_cases hf : p.firstResultsStep ≤ k
      · exact (h3 hf).mono fun n hn _ => hn
      · exact Filter.Eventually.of_forall fun n hf' => absurd hf' hf
    have h4' : ∀ᶠ n in F, p.firstResultsStep ≤ k → ∀ a ∈ List.range (p.airplanesAt k).length, ∀ A,
        (p.airplanesAt k)[a]? = some A → ∃ L L' : AirplaneLoads,
        (s₁.loads k)[a]? = some L ∧ ((z₁ n).loads k)[a]? = some L' ∧
        (L'.forceWind - L.forceWind).norm < ε ∧ (L'.momentWind - L.momentWind).norm < ε ∧
        ((p.operatingPointAt k).density ≠ 0 → (p.operatingPointAt k).velocity ≠ 0 → A.sRef ≠ 0 → A.cRef ≠ 0 →
          A.bRef ≠ 0 → (L'.forceCoefficients - L.forceCoefficients).norm < ε ∧
          (L'.momentCoefficients - L.momentCoefficients).norm < ε) := by
      by_cases hf : p.firstResultsStep ≤ k
      · exact (h4 hf).mono fun n hn _ => hn
      · exact Filter.Eventually.of_forall fun n hf' => absurd hf' hf
    filter_upwards [h1, h2, h3', h4'] with n e1 e2 e3 e4
    exact ⟨fun r d hd => e1 r ((mem_panelRefs _ _).mpr ⟨d, hd⟩), e2,
      fun hf r d hd => e3 hf r ((mem_panelRefs _ _).mpr ⟨d, hd⟩),
      fun hf a A hA => e4 hf a (List.mem_range.mpr (List.getElem?_eq_some_iff.mp hA).1) A hA⟩
  exact hfin.mono fun n hn k hk => hn k (Finset.mem_range.mpr hk)

/-- Problems that are nearer and nearer to a problem. -/
theorem of_near {δ : ι → ℝ} (hδ : Tendsto δ F (𝓝 0)) (hp : p.Made) (hq : ∀ n, (q n).Made) (hdt : p.deltaTime ≠ 0)
    (hn : ∀ n, p.Near (δ n) (q n)) : UnsteadyApproach F q p := by
  have num : ∀ {f : ι → ℝ} {c : ℝ}, (∀ n, |f n - c| < δ n) → Tendsto f F (𝓝 c) := by
    intro f c h
    have := squeeze_zero_norm (f := fun n => f n - c) (fun n => (h n).le) hδ
    have := this.add_const c
    simpa using this
  exact {
    made := hp
    made' := hq
    numSteps := fun n => (hn n).numSteps
    first := fun n => (hn n).firstResultsStep
    time := num fun n => (hn n).deltaTime
    nonzero := hdt
    step := fun k hk => Approach.of_near hδ (fun n => (hn n).steps k hk) (hp.regular.made k)
      (fun n => (hq n).regular.made k)
    nu := fun k hk => num fun n => (hn n).nu k hk }

end UnsteadyApproach

theorem SteadyProblem.Near.mono {δ δ' : ℝ} {P Q : SteadyProblem} (h : P.Near δ Q) (hd : δ ≤ δ') : P.Near δ' Q :=
  { velocity := h.velocity.trans_le hd, density := h.density.trans_le hd, alpha := h.alpha.trans_le hd
    beta := h.beta.trans_le hd, airplanes := h.airplanes
    references := fun i a b ha hb => by
      obtain ⟨h1, h2, h3, h4⟩ := h.references i a b ha hb
      exact ⟨h1.trans_le hd, h2.trans_le hd, h3.trans_le hd, h4.trans_le hd⟩
    spans := fun r v w hv hw => (h.spans r v w hv hw).trans_le hd
    panels := h.panels
    vertices := fun r p q hp hq => by
      obtain ⟨h1, h2, h3, h4⟩ := h.vertices r p q hp hq
      exact ⟨h1.trans_le hd, h2.trans_le hd, h3.trans_le hd, h4.trans_le hd⟩ }

theorem UnsteadyProblem.Near.mono {δ δ' : ℝ} {p q : UnsteadyProblem} (h : p.Near δ q) (hd : δ ≤ δ') : p.Near δ' q :=
  { numSteps := h.numSteps, firstResultsStep := h.firstResultsStep, deltaTime := h.deltaTime.trans_le hd
    steps := fun k hk => (h.steps k hk).mono hd, nu := fun k hk => (h.nu k hk).trans_le hd }

end Ptera
