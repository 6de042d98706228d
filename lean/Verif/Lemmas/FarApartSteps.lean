import Verif.Lemmas.FarApartUnsteady

/-! Airplanes put together farther and farther apart: the steps of the runs. -/

namespace Ptera

open Filter Topology UnsteadySolver

/-- The problems `P i` put together to the problems `q n`, farther and farther apart. -/
structure FarApproach (F : Filter ℕ) (m N : ℕ) (P : ℕ → UnsteadyProblem) (d : ℕ → ℕ → V3) (q : ℕ → UnsteadyProblem) :
    Prop where
  made : ∀ i < m, (P i).Made
  made' : ∀ n, (q n).Made
  nonzero : ∀ i < m, (P i).deltaTime ≠ 0
  numSteps : ∀ n, (q n).numSteps = N
  assembled : ∀ n, Assembled m P (d n) (q n)
  far : ∀ i j, i < m → j < m → i ≠ j → Far (fun n => d n i - d n j) F

variable {F : Filter ℕ} {m N : ℕ} {P : ℕ → UnsteadyProblem} {d : ℕ → ℕ → V3} {q : ℕ → UnsteadyProblem}

theorem exists_family {α : Type*} [Inhabited α] {R : ℕ → α → Prop} (h : ∀ i < m, ∃ a, R i a) :
    ∃ f : ℕ → α, ∀ i < m, R i (f i) := by
  have : ∀ i, ∃ a, i < m → R i a := fun i => by
    by_cases hi : i < m
    · exact (h i hi).imp fun a ha _ => ha
    · exact ⟨default, fun hi' => absurd hi' hi⟩
  choose f hf using this
  exact ⟨f, hf⟩

/-- Systems that do not influence each other, solved together. -/
theorem Assembled.block {d : ℕ → V3} {q : UnsteadyProblem} (h : Assembled m P d q) {k : ℕ} (hk : k < q.numSteps)
    {C : ℕ → PanelRef → PanelRef → ℝ} {b Γ : ℕ → PanelRef → ℝ}
    (hsol : ∀ i < m, linalgSolve ((panelRefs ((P i).airplanesAt k)).map fun r =>
      (panelRefs ((P i).airplanesAt k)).map fun s => C i r s) ((panelRefs ((P i).airplanesAt k)).map (b i))
      = .ok ((panelRefs ((P i).airplanesAt k)).map (Γ i))) :
    linalgSolve ((panelRefs (q.airplanesAt k)).map fun I => (panelRefs (q.airplanesAt k)).map fun J =>
        if J.airplane = I.airplane then C I.airplane I.alone J.alone else 0)
      ((panelRefs (q.airplanesAt k)).map fun I => b I.airplane I.alone)
      = .ok ((panelRefs (q.airplanesAt k)).map fun I => Γ I.airplane I.alone) := by
  have row : ∀ I : PanelRef, I.airplane < m → ∀ Δ : PanelRef → ℝ, ((panelRefs (q.airplanesAt k)).map fun J =>
        (if J.airplane = I.airplane then C I.airplane I.alone J.alone else 0) * Δ J).sum
      = ((panelRefs ((P I.airplane).airplanesAt k)).map fun s =>
          C I.airplane I.alone s * Δ (s.ofAirplane I.airplane)).sum := by
    intro I hI Δ
    simp only [ite_mul, zero_mul]
    rw [h.sum_own hI hk fun J => C I.airplane I.alone J.alone * Δ J]
    congr 1
    apply List.map_congr_left
    intro s hs
    rw [ofAirplane_alone (h.ref_zero hI hk hs)]
  apply linalgSolve_of_unique
  · refine ⟨by simp, ?_⟩
    rw [matVec_values]
    apply List.map_congr_left
    intro I hI
    obtain ⟨hi, hr⟩ := (h.mem_refs hk I).mp hI
    have hs := (linalgSolve_ok (hsol _ hi)).2
    rw [matVec_values] at hs
    rw [row I hi, ← map_inj_left hs _ hr]
    congr 1
    apply List.map_congr_left
    intro s hs
    rw [ofAirplane_alone (h.ref_zero hi hk hs)]
    rfl
  · intro y hy hm
    obtain ⟨Δ, rfl⟩ := exists_values (panelRefs_nodup (q.airplanesAt k))
      (show y.length = (panelRefs (q.airplanesAt k)).length by simpa using hy)
    rw [matVec_values] at hm
    have hm' := map_inj_left hm
    apply List.map_congr_left
    intro I hI
    obtain ⟨hi, hr⟩ := (h.mem_refs hk I).mp hI
    have hu : ((panelRefs ((P I.airplane).airplanesAt k)).map fun s => Δ (s.ofAirplane I.airplane))
        = (panelRefs ((P I.airplane).airplanesAt k)).map (Γ I.airplane) := by
      apply linalgSolve_unique (hsol _ hi)
      refine ⟨by simp, ?_⟩
      rw [matVec_values]
      apply List.map_congr_left
      intro s hs
      have := hm' _ (h.ref_mem hi hk hs)
      rw [row (s.ofAirplane I.airplane) hi, ofAirplane_alone (h.ref_zero hi hk hs)] at this
      exact this
    have := map_inj_left hu _ hr
    exact this

namespace FarApproach

theorem step (h : FarApproach F m N P d q) {k : ℕ} (hk : k < N) (n : ℕ) : k < (q n).numSteps := by
  rw [h.numSteps]; exact hk

theorem step₀ (h : FarApproach F m N P d q) {i k : ℕ} (hi : i < m) (hk : k < N) : k < (P i).numSteps :=
  (h.assembled 0).steps hi (h.step hk 0)

theorem steps₀ (h : FarApproach F m N P d q) {i : ℕ} (hi : i < m) : (P i).numSteps = N := by
  rw [(h.assembled 0).numSteps i hi, h.numSteps]

theorem refs (h : FarApproach F m N P d q) {k : ℕ} (hk : k < N) (n : ℕ) :
    panelRefs ((q n).airplanesAt k) = panelRefs ((q 0).airplanesAt k) := by
  have hp : (panelRefs ((q n).airplanesAt k)).Perm (panelRefs ((q 0).airplanesAt k)) :=
    (List.perm_ext_iff_of_nodup (panelRefs_nodup _) (panelRefs_nodup _)).mpr fun r => by
      rw [(h.assembled n).mem_refs (h.step hk n), (h.assembled 0).mem_refs (h.step hk 0)]
  refine hp.eq_of_pairwise ?_ (panelRefs_ordered _) (panelRefs_ordered _)
  intro a b _ _ h1 h2
  unfold PanelRef.Before at h1 h2
  omega

theorem places (h : FarApproach F m N P d q) {k : ℕ} (hk : k < N) (n : ℕ) :
    (wakePlaces (q n) k).Perm (wakePlaces (q 0) k) :=
  (List.perm_ext_iff_of_nodup (wakePlaces_nodup _ k) (wakePlaces_nodup _ k)).mpr fun c => by
    rw [(h.assembled n).mem_places h.made (h.made' n) (h.step hk n),
      (h.assembled 0).mem_places h.made (h.made' 0) (h.step hk 0)]

/-- Sums over all panels in which only the terms of airplane `i` stay. -/
theorem sum_tends (h : FarApproach F m N P d q) {i k : ℕ} (hi : i < m) (hk : k < N) {X : ℕ → PanelRef → V3}
    {Y : PanelRef → V3}
    (hown : ∀ r ∈ panelRefs ((P i).airplanesAt k), V3.Tends (fun n => X n (r.ofAirplane i)) F (Y r))
    (hother : ∀ r ∈ panelRefs ((q 0).airplanesAt k), r.airplane ≠ i → V3.Tends (fun n => X n r) F 0) :
    V3.Tends (fun n => ((panelRefs ((q n).airplanesAt k)).map (X n)).sum) F
      ((panelRefs ((P i).airplanesAt k)).map Y).sum := by
  have ha := h.assembled 0
  have hk0 := h.step hk 0
  have e : ((panelRefs ((P i).airplanesAt k)).map Y).sum
      = ((panelRefs ((q 0).airplanesAt k)).map fun r => if r.airplane = i then Y r.alone else 0).sum := by
    rw [ha.sum_own hi hk0 fun r => Y r.alone]
    congr 1
    apply List.map_congr_left
    intro r hr
    rw [Assembled.ofAirplane_alone (ha.ref_zero hi hk0 hr)]
  rw [e]
  simp only [h.refs hk]
  refine V3.Tends.listSum _ fun r hr => ?_
  by_cases hri : r.airplane = i
  · subst hri
    simp only [if_true]
    exact hown r.alone ((ha.mem_refs hk0 r).mp hr).2
  · simp only [if_neg hri]
    exact hother r hr hri

theorem sum_places_tends (h : FarApproach F m N P d q) {i k : ℕ} (hi : i < m) (hk : k < N) {X : ℕ → WakePlace → V3}
    {Y : WakePlace → V3} (hown : ∀ c ∈ wakePlaces (P i) k, V3.Tends (fun n => X n (c.ofAirplane i)) F (Y c))
    (hother : ∀ c ∈ wakePlaces (q 0) k, c.airplane ≠ i → V3.Tends (fun n => X n c) F 0) :
    V3.Tends (fun n => ((wakePlaces (q n) k).map (X n)).sum) F ((wakePlaces (P i) k).map Y).sum := by
  have ha := h.assembled 0
  have hk0 := h.step hk 0
  have e : ((wakePlaces (P i) k).map Y).sum
      = ((wakePlaces (q 0) k).map fun c => if c.airplane = i then Y (c.ofAirplane 0) else 0).sum := by
    rw [ha.sum_places h.made (h.made' 0) hi hk0 fun c => Y (c.ofAirplane 0)]
    congr 1
    apply List.map_congr_left
    intro c hc
    rw [Assembled.place_back (ha.place_zero hi hk0 hc)]
  rw [e]
  simp only [fun n => ((h.places hk n).map (X n)).sum_eq]
  refine V3.Tends.listSum _ fun c hc => ?_
  by_cases hci : c.airplane = i
  · subst hci
    simp only [if_true]
    exact hown (c.ofAirplane 0) ((ha.mem_places h.made (h.made' 0) hk0 c).mp hc).2
  · simp only [if_neg hci]
    exact hother c hc hci

theorem unit_own (h : FarApproach F m N P d q) {i k : ℕ} (hi : i < m) (hk : k < N) {r : PanelRef}
    (hr : r ∈ panelRefs ((P i).airplanesAt k)) {x : ℕ → V3} {x₀ : V3} (hx : V3.Tends x F x₀) {g : ℝ}
    (hcut : ∀ f ∈ ((boundRing (P i) k r).updateStrength g).filaments, f.OffBorder x₀) :
    V3.Tends (fun n => unitRing (q n) k (r.ofAirplane i) (x n + d n i)) F (unitRing (P i) k r x₀) := by
  obtain ⟨pan, hp⟩ := (mem_panelRefs _ _).mp hr
  simp only [fun n => (h.assembled n).unit (h.made i hi) (h.made' n) hi (h.step hk n) hp]
  simp only [RingVortex.filaments, ringFilaments, List.mem_cons, List.not_mem_nil, or_false] at hcut
  have c1 := hcut _ (Or.inl rfl)
  have c2 := hcut _ (Or.inr (Or.inl rfl))
  have c3 := hcut _ (Or.inr (Or.inr (Or.inl rfl)))
  have c4 := hcut _ (Or.inr (Or.inr (Or.inr rfl)))
  unfold unitRing
  simp only [unitVelocity, ringLegs, List.map_cons, List.map_nil, List.sum_cons, List.sum_nil]
  have k : ∀ c : V3, V3.Tends (fun _ : ℕ => c) F c := fun c => V3.Tends.const c
  exact (entry_tends (k _) (k _) hx c1.1 c1.2.1 c1.2.2).add ((entry_tends (k _) (k _) hx c2.1 c2.2.1 c2.2.2).add
    ((entry_tends (k _) (k _) hx c3.1 c3.2.1 c3.2.2).add ((entry_tends (k _) (k _) hx c4.1 c4.2.1 c4.2.2).add
      (V3.Tends.const 0))))

theorem unit_other (h : FarApproach F m N P d q) {i k : ℕ} (hi : i < m) (hk : k < N) {r : PanelRef}
    (hr : r ∈ panelRefs ((q 0).airplanesAt k)) (hri : r.airplane ≠ i) {x : ℕ → V3} {x₀ : V3} (hx : V3.Tends x F x₀) :
    V3.Tends (fun n => unitRing (q n) k r (x n + d n i)) F 0 := by
  obtain ⟨hj, hr'⟩ := ((h.assembled 0).mem_refs (h.step hk 0) r).mp hr
  obtain ⟨pan, hp⟩ := (mem_panelRefs _ _).mp hr'
  have e : ∀ n, unitRing (q n) k r (x n + d n i)
      = unitRing (P r.airplane) k r.alone (x n + (d n i - d n r.airplane)) := by
    intro n
    rw [← (h.assembled n).unit (h.made _ hj) (h.made' n) hj (h.step hk n) hp, Assembled.alone_ofAirplane]
    congr 1
    abel
  simp only [e]
  exact ((h.far i _ hi hj (Ne.symm hri)).tends hx).unitVelocity _

end FarApproach

variable {pres : Bool} {s s₁ : ℕ → UnsteadySolver} {st sm : ℕ → ℕ → UnsteadySolver} {z z₁ : ℕ → UnsteadySolver}
  {zt zm : ℕ → ℕ → UnsteadySolver}

/-- The wake vertices of airplane `i` at step `k` tend to those of the airplane alone. -/
def FarVertices (F : Filter ℕ) (P : ℕ → UnsteadyProblem) (d : ℕ → ℕ → V3) (s₁ z₁ : ℕ → UnsteadySolver) (i k : ℕ) : Prop :=
  ∀ w W, (P i).wing? ⟨k, 0, w⟩ = some W → 0 < W.numSpanwisePanels → ∀ a ≤ k, ∀ j ≤ W.numSpanwisePanels,
    V3.Tends (fun n => vertexAt ((z₁ n).vertices ⟨k, i, w⟩) a j - d n i) F (vertexAt ((s₁ i).vertices ⟨k, 0, w⟩) a j)

/-- The strengths of airplane `i` at step `k` tend to those of the airplane alone. -/
def FarStrengths (F : Filter ℕ) (P : ℕ → UnsteadyProblem) (q : ℕ → UnsteadyProblem) (s₁ z₁ : ℕ → UnsteadySolver)
    (i k : ℕ) : Prop :=
  ∀ r ∈ panelRefs ((P i).airplanesAt k), ∃ (g₀ : ℝ) (g : ℕ → ℝ),
    ((s₁ i).panels k r).ring = some ((boundRing (P i) k r).updateStrength g₀) ∧
    (∀ n, ((z₁ n).panels k (r.ofAirplane i)).ring = some ((boundRing (q n) k (r.ofAirplane i)).updateStrength (g n))) ∧
    Tendsto g F (𝓝 g₀)

/-- The flow near airplane `i` at step `k` tends to that around the airplane alone, off the borders of the left-out
regions. -/
def FarFlow (F : Filter ℕ) (d : ℕ → ℕ → V3) (s₁ z₁ : ℕ → UnsteadySolver) (i k : ℕ) : Prop :=
  ∀ (x : ℕ → V3) x₀, (∀ f ∈ (s₁ i).filaments k, f.OffBorder x₀) → V3.Tends x F x₀ →
    V3.Tends (fun n => flow (z₁ n) k (x n + d n i)) F (flow (s₁ i) k x₀)

namespace FarApproach

theorem edge_strength (h : FarApproach F m N P d q) {i j k : ℕ} (hi : i < m) (hj : j < N) (hk : k < N)
    (hst : FarStrengths F P q s₁ z₁ i j) {w c : ℕ} {W : Wing} (hW : (P i).wing? ⟨k, 0, w⟩ = some W)
    (hc : c < W.numSpanwisePanels) :
    Tendsto (fun n => edgeStrength (q n) (z₁ n) j ⟨k, i, w⟩ c) F (𝓝 (edgeStrength (P i) (s₁ i) j ⟨k, 0, w⟩ c)) := by
  obtain ⟨V, hV, hn, hch⟩ := (sameMotion (h.made i hi)).wings.wing_at (h.step₀ hi hj) (h.step₀ hi hk) hW
  obtain ⟨g₀, g, h1, h2, h3⟩ := hst _ ((sameMotion (h.made i hi)).wings.edge_mem hV (j := c) (by omega))
  rw [hch] at h1 h2
  have e : ∀ n, edgeStrength (q n) (z₁ n) j ⟨k, i, w⟩ c = g n := by
    intro n
    obtain ⟨-, -, -, hc'⟩ := (h.assembled n).wing (h.made i hi) (h.made' n) hi (h.step hk n) hW (by omega)
    have h2' := h2 n
    simp only [PanelRef.ofAirplane] at h2'
    unfold edgeStrength
    simp only
    rw [hc', ringAt_of_panels h2']
    rfl
  have e₀ : edgeStrength (P i) (s₁ i) j ⟨k, 0, w⟩ c = g₀ := by
    unfold edgeStrength
    simp only
    rw [ringAt_of_panels h1]
    rfl
  simp only [e, e₀]
  exact h3

/-- The wake ring at a place behind airplane `i`. -/
theorem place_ring (h : FarApproach F m N P d q) {i k : ℕ} (hi : i < m) (hk : k < N)
    (hv : 0 < k → FarVertices F P d s₁ z₁ i k) (hst : ∀ j < k, FarStrengths F P q s₁ z₁ i j) {c : WakePlace}
    (hc : c ∈ wakePlaces (P i) k) :
    V3.Tends (fun n => (placeRing (q n) (z₁ n) k (c.ofAirplane i)).frontLeft - d n i) F
      (placeRing (P i) (s₁ i) k c).frontLeft ∧
    V3.Tends (fun n => (placeRing (q n) (z₁ n) k (c.ofAirplane i)).frontRight - d n i) F
      (placeRing (P i) (s₁ i) k c).frontRight ∧
    V3.Tends (fun n => (placeRing (q n) (z₁ n) k (c.ofAirplane i)).backLeft - d n i) F
      (placeRing (P i) (s₁ i) k c).backLeft ∧
    V3.Tends (fun n => (placeRing (q n) (z₁ n) k (c.ofAirplane i)).backRight - d n i) F
      (placeRing (P i) (s₁ i) k c).backRight ∧
    Tendsto (fun n => (placeRing (q n) (z₁ n) k (c.ofAirplane i)).strength) F
      (𝓝 (placeRing (P i) (s₁ i) k c).strength) ∧
    ∀ n, (placeRing (q n) (z₁ n) k (c.ofAirplane i)).age = (placeRing (P i) (s₁ i) k c).age := by
  have h0 := (h.assembled 0).place_zero hi (h.step hk 0) hc
  obtain ⟨hrow, W, hW, hcol⟩ := mem_wakePlaces.mp hc
  have hpos : 0 < W.numSpanwisePanels := by omega
  obtain ⟨a, w, row, col⟩ := c
  simp only at h0
  subst h0
  simp only at hrow hW hcol
  have hstr := h.edge_strength (j := k - 1 - row) hi (by omega) hk (hst _ (by omega)) hW hcol
  have hvert := hv (by omega) w W hW hpos
  refine ⟨hvert row (by omega) col (by omega), hvert row (by omega) (col + 1) (by omega),
    hvert (row + 1) (by omega) col (by omega), hvert (row + 1) (by omega) (col + 1) (by omega), hstr, fun n => ?_⟩
  show (row : ℝ) * (q n).deltaTime = (row : ℝ) * (P i).deltaTime
  rw [(h.assembled n).deltaTime i hi]

theorem wake_flow (h : FarApproach F m N P d q) (ht : ∀ i < m, Trace (P i) pres (s i) (s₁ i) (st i) (sm i))
    (ht' : ∀ n, Trace (q n) pres (z n) (z₁ n) (zt n) (zm n)) {i k : ℕ} (hi : i < m) (hk : k < N)
    (hv : ∀ i < m, 0 < k → FarVertices F P d s₁ z₁ i k) (hst : ∀ i < m, ∀ j < k, FarStrengths F P q s₁ z₁ i j)
    {x : ℕ → V3} {x₀ : V3} (hcut : ∀ f ∈ (s₁ i).filaments k, f.OffBorder x₀) (hx : V3.Tends x F x₀) :
    V3.Tends (fun n => wakeFlow (z₁ n) k (x n + d n i)) F (wakeFlow (s₁ i) k x₀) := by
  have e : ∀ n, wakeFlow (z₁ n) k (x n + d n i) = ((wakePlaces (q n) k).map fun c =>
      ringInduced ((q n).operatingPointAt k).nu (placeRing (q n) (z₁ n) k c).frontRight
        (placeRing (q n) (z₁ n) k c).frontLeft (placeRing (q n) (z₁ n) k c).backLeft
        (placeRing (q n) (z₁ n) k c).backRight (placeRing (q n) (z₁ n) k c).strength
        (placeRing (q n) (z₁ n) k c).age (x n + d n i)).sum := by
    intro n
    unfold wakeFlow
    rw [(ht' n).places (h.step hk n), (ht' n).final_eq.2.2.2.2.2.2]
    simp only [Option.getD_some, List.map_map]
    rfl
  have e₀ : wakeFlow (s₁ i) k x₀ = ((wakePlaces (P i) k).map fun c =>
      ringInduced ((P i).operatingPointAt k).nu (placeRing (P i) (s₁ i) k c).frontRight
        (placeRing (P i) (s₁ i) k c).frontLeft (placeRing (P i) (s₁ i) k c).backLeft
        (placeRing (P i) (s₁ i) k c).backRight (placeRing (P i) (s₁ i) k c).strength
        (placeRing (P i) (s₁ i) k c).age x₀).sum := by
    unfold wakeFlow
    rw [(ht i hi).places (h.step₀ hi hk), (ht i hi).final_eq.2.2.2.2.2.2]
    simp only [Option.getD_some, List.map_map]
    rfl
  have moved : ∀ (nu Γ age : ℝ) (a b c f y t : V3), ringInduced nu a b c f Γ age (y + t)
      = ringInduced nu (a - t) (b - t) (c - t) (f - t) Γ age y := by
    intro nu Γ age a b c f y t
    have := ringInduced_moved nu Γ age (a - t) (b - t) (c - t) (f - t) y t
    simpa only [sub_add_cancel] using this
  simp only [e, e₀]
  refine h.sum_places_tends hi hk ?_ ?_
  · intro c hc
    obtain ⟨h1, h2, h3, h4, h5, h6⟩ := h.place_ring hi hk (hv i hi) (hst i hi) hc
    simp only [moved, h6, fun n => ((h.assembled n).flow i hi k (h.step hk n)).symm]
    refine ringInduced_tends h2 h1 h3 h4 hx tendsto_const_nhds h5 tendsto_const_nhds ?_
    intro f hf
    refine hcut f ?_
    unfold UnsteadySolver.filaments
    rw [(ht i hi).places (h.step₀ hi hk), List.mem_append]
    right
    simp only [Option.getD_some, List.mem_flatMap, List.mem_map]
    exact ⟨_, ⟨c, hc, rfl⟩, hf⟩
  · intro c hc hci
    obtain ⟨hj, hc'⟩ := ((h.assembled 0).mem_places h.made (h.made' 0) (h.step hk 0) c).mp hc
    obtain ⟨h1, h2, h3, h4, h5, h6⟩ := h.place_ring hj hk (hv _ hj) (hst _ hj) hc'
    have ec : (c.ofAirplane 0).ofAirplane c.airplane = c := rfl
    rw [ec] at h1 h2 h3 h4 h5
    have hf := (h.far i _ hi hj (Ne.symm hci)).tends hx
    have := hf.ringInduced (nu := fun n => ((q n).operatingPointAt k).nu)
      (age := fun n => (placeRing (q n) (z₁ n) k c).age) h2 h1 h3 h4 h5
    refine this.congr' (Filter.Eventually.of_forall fun n => ?_)
    rw [← moved]
    congr 1
    abel

theorem first_row (h : FarApproach F m N P d q) (ht : ∀ i < m, Trace (P i) pres (s i) (s₁ i) (st i) (sm i))
    (ht' : ∀ n, Trace (q n) pres (z n) (z₁ n) (zt n) (zm n)) {i k : ℕ} (hi : i < m) (hk : k < N) (h0 : 0 < k) {w : ℕ}
    {W : Wing} (hW : (P i).wing? ⟨k, 0, w⟩ = some W) (hn : 0 < W.numSpanwisePanels) {j : ℕ}
    (hj : j ≤ W.numSpanwisePanels) (n : ℕ) :
    vertexAt ((z₁ n).vertices ⟨k, i, w⟩) 0 j = vertexAt ((s₁ i).vertices ⟨k, 0, w⟩) 0 j + d n i := by
  obtain ⟨v1, v2⟩ := (sameMotion (h.made i hi)).wings.edge_vertices (ht i hi) (h.step₀ hi hk) h0 hW
  obtain ⟨W', hW', e1, e2⟩ := (h.assembled n).wing (h.made i hi) (h.made' n) hi (h.step hk n) hW hn
  obtain ⟨u1, u2⟩ := (sameMotion (h.made' n)).wings.edge_vertices (ht' n) (h.step hk n) h0 hW'
  rw [e1, e2] at u1 u2
  have hmem : ∀ c < W.numSpanwisePanels, ∃ pan, _ = some pan := fun c hc =>
    (mem_panelRefs _ _).mp ((sameMotion (h.made i hi)).wings.edge_mem hW (j := c) hc)
  have hring := fun c hc => (h.assembled n).ring (h.made i hi) (h.made' n) hi (h.step hk n) (hmem c hc).choose_spec
  by_cases hlt : j < W.numSpanwisePanels
  · rw [v1 j hlt, u1 j hlt]
    exact (hring j hlt).2.2.1
  · obtain rfl : j = W.numSpanwisePanels := by omega
    rw [v2 hn, u2 hn]
    exact (hring _ (by omega)).2.2.2

theorem next_vertices (h : FarApproach F m N P d q) (ht : ∀ i < m, Trace (P i) pres (s i) (s₁ i) (st i) (sm i))
    (ht' : ∀ n, Trace (q n) pres (z n) (z₁ n) (zt n) (zm n)) (hcut : ∀ i < m, OffBorders (P i) pres (s₁ i)) {i k : ℕ}
    (hi : i < m) (hk : k + 1 < N) (hv : 0 < k → FarVertices F P d s₁ z₁ i k) (hf : FarFlow F d s₁ z₁ i k) :
    FarVertices F P d s₁ z₁ i (k + 1) := by
  intro w W hW hn a ha j hj
  have cancel : ∀ x t : V3, x + t - t = x := fun x t => by abel
  cases a with
  | zero =>
    simp only [h.first_row ht ht' hi hk (by omega) hW hn hj, cancel]
    exact V3.Tends.const _
  | succ a =>
    have hti := ht i hi
    obtain ⟨V, hV, hVn, -⟩ := (sameMotion (h.made i hi)).wings.wing_at (j := k) (h.step₀ hi (by omega))
      (h.step₀ hi hk) hW
    have hmem : (⟨k, 0, w⟩ : WingRef) ∈ wingRefs k ((P i).airplanesAt k) := mem_wingRefs.mpr ⟨rfl, V, hV⟩
    have hsp : (P i).spanOf ⟨k, 0, w⟩ = V.numSpanwisePanels := by simp [UnsteadyProblem.spanOf, hV]
    have e := hti.later_rows (h.step₀ hi hk) hmem (i := a) (by omega) (j := j) (by omega)
    have e' : ∀ n, vertexAt ((z₁ n).vertices ⟨k + 1, i, w⟩) (a + 1) j = (zm n k).convect pres
        (vertexAt ((z₁ n).vertices (if k = 0 then ⟨k + 1, i, w⟩ else ⟨k, i, w⟩)) a j) := by
      intro n
      obtain ⟨V', hV', hVn', -⟩ := (h.assembled n).wing (h.made i hi) (h.made' n) hi (k := k) (h.step (by omega) n) hV
        (by omega)
      have hmem' : (⟨k, i, w⟩ : WingRef) ∈ wingRefs k ((q n).airplanesAt k) := mem_wingRefs.mpr ⟨rfl, V', hV'⟩
      have hsp' : (q n).spanOf ⟨k, i, w⟩ = V'.numSpanwisePanels := by simp [UnsteadyProblem.spanOf, hV']
      exact (ht' n).later_rows (k := k) (h.step hk n) hmem' (i := a) (by omega) (j := j) (by omega)
    simp only at e e'
    rw [e]
    simp only [e']
    rw [hti.convect (h.made i hi).regular (h.step₀ hi (by omega))]
    simp only [fun n => (ht' n).convect (h.made' n).regular (k := k) (h.step (by omega) n)]
    have hold : V3.Tends (fun n => vertexAt ((z₁ n).vertices (if k = 0 then ⟨k + 1, i, w⟩ else ⟨k, i, w⟩)) a j - d n i) F
        (vertexAt ((s₁ i).vertices (if k = 0 then ⟨k + 1, 0, w⟩ else ⟨k, 0, w⟩)) a j) := by
      by_cases h0 : k = 0
      · simp only [if_pos h0]
        obtain rfl : a = 0 := by omega
        simp only [h.first_row ht ht' hi hk (by omega) hW hn hj, cancel]
        exact V3.Tends.const _
      · simp only [if_neg h0]
        exact hv (by omega) w V hV (by omega) a (by omega) j (by omega)
    have split : ∀ x y t : V3, x + y - t = x - t + y := fun x y t => by abel
    simp only [split, fun n => ((h.assembled n).deltaTime i hi).symm]
    refine hold.add (V3.Tends.smul tendsto_const_nhds ?_)
    cases pres with
    | true =>
      simp only [if_true, fun n => ((h.assembled n).flow i hi k (h.step (by omega) n)).symm]
      exact V3.Tends.const _
    | false =>
      simp only [Bool.false_eq_true, if_false]
      have hlim := hf _ _ (hcut i hi k (h.step₀ hi (by omega)) _ ?_) hold
      · simpa only [sub_add_cancel] using hlim
      by_cases h0 : k = 0
      · simp only [if_pos h0]
        obtain rfl : a = 0 := by omega
        obtain ⟨l, v, c1, c2, -, c3⟩ := UnsteadyApproach.vertex_corner hti (h.step₀ hi hk) (by omega) hW hn (i := 0)
          (by omega) hj
        subst h0
        exact .firstWake rfl rfl c1 c2 (c3 rfl)
      · simp only [if_neg h0]
        obtain ⟨l, v, c1, c2, c3, -⟩ := UnsteadyApproach.vertex_corner hti (k := k) (h.step₀ hi (by omega)) (by omega) hV
          (by omega) (i := a) (by omega) (j := j) (by omega)
        exact .wake rfl c1 c2 c3

/-- The influence of panel `s` on panel `r` of problem `p` at step `k`. -/
noncomputable def influence (p : UnsteadyProblem) (k : ℕ) (r s : PanelRef) : ℝ :=
  (unitRing p k s (geometryOf (p.airplanesAt k) r).collocationPoint).dot (geometryOf (p.airplanesAt k) r).unitNormal

theorem matrix (h : FarApproach F m N P d q) (ht : ∀ i < m, Trace (P i) pres (s i) (s₁ i) (st i) (sm i))
    (hcut : ∀ i < m, OffBorders (P i) pres (s₁ i)) {k : ℕ} (hk : k < N) :
    ∀ I ∈ panelRefs ((q 0).airplanesAt k), ∀ J ∈ panelRefs ((q 0).airplanesAt k),
      Tendsto (fun n => influence (q n) k I J) F
        (𝓝 (if J.airplane = I.airplane then influence (P I.airplane) k I.alone J.alone else 0)) := by
  intro I hI J hJ
  obtain ⟨hi, hr⟩ := ((h.assembled 0).mem_refs (h.step hk 0) I).mp hI
  obtain ⟨pan, hp⟩ := (mem_panelRefs _ _).mp hr
  have hpt := fun n => (h.assembled n).points hi (h.step hk n) hp
  simp only [Assembled.alone_ofAirplane] at hpt
  unfold influence
  simp only [fun n => (hpt n).1, fun n => (hpt n).2]
  by_cases hJI : J.airplane = I.airplane
  · rw [if_pos hJI]
    obtain ⟨hj, hs⟩ := ((h.assembled 0).mem_refs (h.step hk 0) J).mp hJ
    rw [hJI] at hs
    obtain ⟨g, hg⟩ := (ht _ hi).rings (h.step₀ hi hk) hs
    have eJ : J.alone.ofAirplane I.airplane = J := by rw [← hJI]; rfl
    have := h.unit_own hi hk hs (V3.Tends.const (geometryOf ((P I.airplane).airplanesAt k) I.alone).collocationPoint)
      (g := g) (by
        intro f hf
        refine hcut _ hi k (h.step₀ hi hk) _ ?_ f (UnsteadyApproach.bound_mem (ht _ hi) hs hg hf)
        simp only [geometryOf_eq hp]
        exact .collocation hp)
    rw [eJ] at this
    exact this.dot (V3.Tends.const _)
  · rw [if_neg hJI]
    have := h.unit_other hi hk hJ hJI
      (V3.Tends.const (geometryOf ((P I.airplane).airplanesAt k) I.alone).collocationPoint)
    have := this.dot (V3.Tends.const (geometryOf ((P I.airplane).airplanesAt k) I.alone).unitNormal)
    simpa [V3.dot] using this

theorem strengths (h : FarApproach F m N P d q) (ht : ∀ i < m, Trace (P i) pres (s i) (s₁ i) (st i) (sm i))
    (ht' : ∀ n, Trace (q n) pres (z n) (z₁ n) (zt n) (zm n)) (hcut : ∀ i < m, OffBorders (P i) pres (s₁ i)) {k : ℕ}
    (hk : k < N)
    (hw : ∀ i < m, ∀ (x : ℕ → V3) x₀, (∀ f ∈ (s₁ i).filaments k, f.OffBorder x₀) → V3.Tends x F x₀ →
      V3.Tends (fun n => wakeFlow (z₁ n) k (x n + d n i)) F (wakeFlow (s₁ i) k x₀)) :
    ∀ i < m, FarStrengths F P q s₁ z₁ i k ∧ FarFlow F d s₁ z₁ i k := by
  obtain ⟨Γ₀, hΓ₀⟩ := exists_family fun i hi => (ht i hi).values (h.made i hi).regular (h.step₀ hi hk)
  choose Γ hΓ hring hflow using fun n => (ht' n).values (h.made' n).regular (h.step hk n)
  have hA := h.matrix ht hcut hk
  have hb : ∀ I ∈ panelRefs ((q 0).airplanesAt k), Tendsto (fun n => rhsAt (q n) (z₁ n) k I) F
      (𝓝 (rhsAt (P I.airplane) (s₁ I.airplane) k I.alone)) := by
    intro I hI
    obtain ⟨hi, hr⟩ := ((h.assembled 0).mem_refs (h.step hk 0) I).mp hI
    obtain ⟨pan, hp⟩ := (mem_panelRefs _ _).mp hr
    have hpt := fun n => (h.assembled n).points hi (h.step hk n) hp
    have hap := fun n => (h.assembled n).apparent (h.made _ hi) hi (h.step hk n) hp
    simp only [Assembled.alone_ofAirplane] at hpt hap
    unfold rhsAt
    simp only [fun n => (hpt n).1, fun n => (hpt n).2, hap,
      fun n => ((h.assembled n).flow _ hi k (h.step hk n)).symm]
    refine (V3.Tends.dot (((hw _ hi _ _ (hcut _ hi k (h.step₀ hi hk) _ ?_) (V3.Tends.const _)).add
      (V3.Tends.const _)).add (V3.Tends.const _)) (V3.Tends.const _)).neg
    simp only [geometryOf_eq hp]
    exact .collocation hp
  have hblock := (h.assembled 0).block (h.step hk 0) (C := fun i => influence (P i) k)
    (b := fun i => rhsAt (P i) (s₁ i) k) (Γ := Γ₀) fun i hi => (hΓ₀ i hi).1
  have hΓt : ∀ I ∈ panelRefs ((q 0).airplanesAt k), Tendsto (fun n => Γ n I) F (𝓝 (Γ₀ I.airplane I.alone)) := by
    refine solve_tendsto' hA hb hblock (Filter.Eventually.of_forall fun n => ?_)
    have := hΓ n
    unfold wingMatrix at this
    rw [h.refs hk n] at this
    exact this
  intro i hi
  have hΓi : ∀ r ∈ panelRefs ((P i).airplanesAt k), Tendsto (fun n => Γ n (r.ofAirplane i)) F (𝓝 (Γ₀ i r)) := by
    intro r hr
    have := hΓt _ ((h.assembled 0).ref_mem hi (h.step hk 0) hr)
    rw [Assembled.ofAirplane_alone ((h.assembled 0).ref_zero hi (h.step hk 0) hr)] at this
    exact this
  obtain ⟨-, hring₀, hflow₀⟩ := hΓ₀ i hi
  refine ⟨?_, ?_⟩
  · intro r hr
    exact ⟨Γ₀ i r, fun n => Γ n (r.ofAirplane i), hring₀ r hr,
      fun n => hring n _ ((h.assembled n).ref_mem hi (h.step hk n) hr), hΓi r hr⟩
  · intro x x₀ hc hx
    have hbound : V3.Tends (fun n => boundFlow (z₁ n) k (x n + d n i)) F (boundFlow (s₁ i) k x₀) := by
      rw [hflow₀]
      simp only [hflow]
      refine h.sum_tends hi hk ?_ ?_
      · intro r hr
        exact V3.Tends.smul (hΓi r hr) (h.unit_own hi hk hr hx (g := Γ₀ i r) fun f hf =>
          hc f (UnsteadyApproach.bound_mem (ht i hi) hr (hring₀ r hr) hf))
      · intro I hI hIi
        have := V3.Tends.smul (hΓt I hI) (h.unit_other hi hk hI hIi hx)
        rwa [smul_zero] at this
    unfold flow
    rw [(ht i hi).final_eq.2.2.2.2.2.2]
    simp only [fun n => (ht' n).final_eq.2.2.2.2.2.2, fun n => ((h.assembled n).flow i hi k (h.step hk n)).symm]
    exact (hbound.add (hw i hi x x₀ hc hx)).add (V3.Tends.const _)

/-- Wake, strengths and flow of every step. -/
theorem steps (h : FarApproach F m N P d q) (ht : ∀ i < m, Trace (P i) pres (s i) (s₁ i) (st i) (sm i))
    (ht' : ∀ n, Trace (q n) pres (z n) (z₁ n) (zt n) (zm n)) (hcut : ∀ i < m, OffBorders (P i) pres (s₁ i)) :
    ∀ k < N, ∀ i < m, (0 < k → FarVertices F P d s₁ z₁ i k) ∧ FarStrengths F P q s₁ z₁ i k ∧ FarFlow F d s₁ z₁ i k := by
  intro k
  induction k using Nat.strong_induction_on with
  | _ k ih =>
    intro hk
    have hv : ∀ i < m, 0 < k → FarVertices F P d s₁ z₁ i k := by
      intro i hi h0
      obtain ⟨l, rfl⟩ : ∃ l, k = l + 1 := ⟨k - 1, by omega⟩
      obtain ⟨h1, -, h3⟩ := ih l (by omega) (by omega) i hi
      exact h.next_vertices ht ht' hcut hi hk h1 h3
    have hst := h.strengths ht ht' hcut hk fun i hi x x₀ hc hx =>
      h.wake_flow ht ht' hi hk hv (fun i hi j hj => (ih j hj (by omega) i hi).2.1) hc hx
    exact fun i hi => ⟨hv i hi, hst i hi⟩

/-- Nearly all of the runs exist. -/
theorem runs_exist (h : FarApproach F m N P d q) (ht : ∀ i < m, Trace (P i) pres (s i) (s₁ i) (st i) (sm i))
    (hcut : ∀ i < m, OffBorders (P i) pres (s₁ i)) (hz : ∀ n, Reached (q n) (z n)) (pres' : Bool) (sl : ℕ → Bool) :
    ∀ᶠ n in F, ∃ z', (z n).run pres' (sl n) = .ok z' := by
  have hall : ∀ᶠ n in F, ∀ k < N, ∃ Γ : PanelRef → ℝ,
      linalgSolve (wingMatrix (q n) k) ((panelRefs ((q n).airplanesAt k)).map fun _ => 0)
        = .ok ((panelRefs ((q n).airplanesAt k)).map Γ) := by
    have hfin : ∀ᶠ n in F, ∀ k ∈ Finset.range N, ∃ Γ : PanelRef → ℝ,
        linalgSolve (wingMatrix (q n) k) ((panelRefs ((q n).airplanesAt k)).map fun _ => 0)
          = .ok ((panelRefs ((q n).airplanesAt k)).map Γ) := by
      rw [Filter.eventually_all_finset]
      intro k hk
      rw [Finset.mem_range] at hk
      obtain ⟨Γ₀, hΓ₀⟩ := exists_family fun i hi => (ht i hi).values (h.made i hi).regular (h.step₀ hi hk)
      have hblock := (h.assembled 0).block (h.step hk 0) (C := fun i => influence (P i) k)
        (b := fun i => rhsAt (P i) (s₁ i) k) (Γ := Γ₀) fun i hi => (hΓ₀ i hi).1
      have := solve_near' (panelRefs_nodup ((q 0).airplanesAt k)) (h.matrix ht hcut hk) hblock fun _ _ => 0
      filter_upwards [this] with n hn
      unfold wingMatrix
      rw [h.refs hk n]
      exact hn
    exact hfin.mono fun n hn k hk => hn k (Finset.mem_range.mpr hk)
  filter_upwards [hall] with n hn
  refine C40_run_finishes (h.made' n) (hz n) ?_ pres' (sl n)
  intro k hk b hb
  rw [h.numSteps] at hk
  obtain ⟨Γ, hΓ⟩ := hn k hk
  unfold wingMatrix at hΓ ⊢
  exact linalgSolve_all _ _ hΓ b hb

end FarApproach

end Ptera
