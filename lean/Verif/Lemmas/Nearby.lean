import Verif.Spec.Nearby
import Verif.Lemmas.Limits
import Verif.Lemmas.SteadyFormulas
import Verif.Lemmas.FarApartLimit
import Verif.Lemmas.MadePanels
import Verif.Props.FlatPanels

/-! Steady problems that tend to a steady problem. -/

namespace Ptera

open Filter Topology

variable {ι : Type*} {F : Filter ι}

theorem V3.tends_of_norm {f : ι → V3} {v : V3} (h : Tendsto (fun n => (f n - v).norm) F (𝓝 0)) : V3.Tends f F v := by
  have h0 : V3.Tends (fun n => f n - v) F 0 := V3.tends_zero (b := fun n => (f n - v).norm)
    (Filter.Eventually.of_forall fun n => le_refl _) h
  have := h0.add (V3.Tends.const v)
  simpa using this

/-- The velocity of a filament is continuous away from where it is cut off. -/
theorem entry_tends {A B x : ι → V3} {A₀ B₀ x₀ : V3} (hA : V3.Tends A F A₀) (hB : V3.Tends B F B₀) (hx : V3.Tends x F x₀)
    (h1 : (A₀ - x₀).norm ≠ eps) (h2 : (B₀ - x₀).norm ≠ eps) (h3 : ((A₀ - x₀).cross (B₀ - x₀)).norm ^ 2 ≠ eps) :
    V3.Tends (fun n => expandedEntry 0 ⟨A n, B n, 1, 0⟩ (x n)) F (expandedEntry 0 ⟨A₀, B₀, 1, 0⟩ x₀) := by
  have he : (0 : ℝ) < eps := by unfold eps; norm_num
  have t1 := hA.sub hx
  have t2 := hB.sub hx
  have t3 := t1.cross t2
  have n1 := t1.norm
  have n2 := t2.norm
  have n3 := t3.norm.pow 2
  rw [expandedEntry_eq]
  by_cases h : Cutoff ⟨A₀, B₀, 1, 0⟩ x₀
  · rw [if_pos h]
    refine (V3.Tends.const 0).congr' ?_
    rcases h with h | h | h
    · filter_upwards [n1.eventually_lt_const h] with n hn
      have hc : Cutoff ⟨A n, B n, 1, 0⟩ (x n) := by unfold Cutoff; exact Or.inl hn
      rw [expandedEntry_eq, if_pos hc]
    · filter_upwards [n2.eventually_lt_const h] with n hn
      have hc : Cutoff ⟨A n, B n, 1, 0⟩ (x n) := by unfold Cutoff; exact Or.inr (Or.inl hn)
      rw [expandedEntry_eq, if_pos hc]
    · filter_upwards [n3.eventually_lt_const h] with n hn
      have hc : Cutoff ⟨A n, B n, 1, 0⟩ (x n) := by unfold Cutoff; exact Or.inr (Or.inr hn)
      rw [expandedEntry_eq, if_pos hc]
  · rw [if_neg h]
    unfold Cutoff at h
    push Not at h
    obtain ⟨g1, g2, g3⟩ := h
    simp only at g1 g2 g3
    have k1 := lt_of_le_of_ne g1 (Ne.symm h1)
    have k2 := lt_of_le_of_ne g2 (Ne.symm h2)
    have k3 := lt_of_le_of_ne g3 (Ne.symm h3)
    have hlim : V3.Tends (fun n => kernelCoeff 0 ⟨A n, B n, 1, 0⟩ (x n) • (A n - x n).cross (B n - x n)) F
        (kernelCoeff 0 ⟨A₀, B₀, 1, 0⟩ x₀ • (A₀ - x₀).cross (B₀ - x₀)) := by
      refine V3.Tends.smul ?_ t3
      simp only [kernelCoeff, coreRadius, mul_zero, Real.sqrt_zero, zero_pow (two_ne_zero), add_zero]
      refine Tendsto.div ((((n1.add n2).const_mul _)).mul ((n1.mul n2).sub (t1.dot t2))) ((n1.mul n2).mul n3) ?_
      have p1 : 0 < (A₀ - x₀).norm := he.trans k1
      have p2 : 0 < (B₀ - x₀).norm := he.trans k2
      have p3 : 0 < ((A₀ - x₀).cross (B₀ - x₀)).norm ^ 2 := he.trans k3
      positivity
    refine hlim.congr' ?_
    filter_upwards [n1.eventually_const_lt k1, n2.eventually_const_lt k2, n3.eventually_const_lt k3] with n e1 e2 e3
    rw [expandedEntry_eq, if_neg]
    unfold Cutoff
    push Not
    exact ⟨e1.le, e2.le, e3.le⟩

/-- Near a system with a unique solution the solutions tend to it, also if the right-hand sides change. -/
theorem solve_tendsto' {α : Type*} {l : List α} {A : ι → α → α → ℝ} {A₀ : α → α → ℝ}
    {b : ι → α → ℝ} {b₀ Γ₀ : α → ℝ} (hA : ∀ i ∈ l, ∀ j ∈ l, Tendsto (fun n => A n i j) F (𝓝 (A₀ i j)))
    (hb : ∀ i ∈ l, Tendsto (fun n => b n i) F (𝓝 (b₀ i)))
    (h : linalgSolve (l.map fun i => l.map fun j => A₀ i j) (l.map b₀) = .ok (l.map Γ₀)) {Γ : ι → α → ℝ}
    (hΓ : ∀ᶠ n in F, linalgSolve (l.map fun i => l.map fun j => A n i j) (l.map (b n)) = .ok (l.map (Γ n))) :
    ∀ r ∈ l, Tendsto (fun n => Γ n r) F (𝓝 (Γ₀ r)) := by
  intro r hr
  obtain ⟨k, hk, rfl⟩ := List.getElem_of_mem hr
  have hdet : (systemMatrix l A₀).det ≠ 0 := (solve_values_iff l A₀ b₀).mp ⟨_, h⟩
  have hM := tendsto_systemMatrix hA
  have hd : Tendsto (fun n => (systemMatrix l (A n)).det) F (𝓝 (systemMatrix l A₀).det) :=
    ((Continuous.matrix_det continuous_id).tendsto (systemMatrix l A₀)).comp hM
  have hc : Tendsto (fun n => (systemMatrix l (A n)).cramer (fun j => b n l[j]) ⟨k, hk⟩) F
      (𝓝 ((systemMatrix l A₀).cramer (fun j => b₀ l[j]) ⟨k, hk⟩)) := by
    simp only [Matrix.cramer_apply]
    have hU : Tendsto (fun n => (systemMatrix l (A n)).updateCol ⟨k, hk⟩ fun j => b n l[j]) F
        (𝓝 ((systemMatrix l A₀).updateCol ⟨k, hk⟩ fun j => b₀ l[j])) := by
      refine tendsto_pi_nhds.mpr fun i => tendsto_pi_nhds.mpr fun j => ?_
      simp only [Matrix.updateCol_apply]
      by_cases hj : j = ⟨k, hk⟩
      · simp only [if_pos hj]
        exact hb _ (List.getElem_mem i.2)
      · simp only [if_neg hj]
        exact hA _ (List.getElem_mem i.2) _ (List.getElem_mem j.2)
    exact ((Continuous.matrix_det continuous_id).tendsto _).comp hU
  have := hc.div hd hdet
  rw [← solve_values h ⟨k, hk⟩] at this
  refine this.congr' ?_
  filter_upwards [hΓ] with n hn
  exact (solve_values hn ⟨k, hk⟩).symm

theorem solve_near' {α : Type*} [DecidableEq α] {l : List α} (hl : l.Nodup) {A : ι → α → α → ℝ} {A₀ : α → α → ℝ}
    {b₀ : α → ℝ} {x : List ℝ} (hA : ∀ i ∈ l, ∀ j ∈ l, Tendsto (fun n => A n i j) F (𝓝 (A₀ i j)))
    (h : linalgSolve (l.map fun i => l.map fun j => A₀ i j) (l.map b₀) = .ok x) (b : ι → α → ℝ) :
    ∀ᶠ n in F, ∃ Γ : α → ℝ, linalgSolve (l.map fun i => l.map fun j => A n i j) (l.map (b n)) = .ok (l.map Γ) := by
  have hdet : (systemMatrix l A₀).det ≠ 0 := (solve_values_iff l A₀ b₀).mp ⟨_, h⟩
  have ht := ((Continuous.matrix_det continuous_id).tendsto (systemMatrix l A₀)).comp (tendsto_systemMatrix hA)
  filter_upwards [ht.eventually_ne hdet] with n hn
  obtain ⟨y, hy⟩ := (solve_values_iff l (A n) (b n)).mpr hn
  obtain ⟨Γ, rfl⟩ := exists_values hl (show y.length = l.length by simpa using (linalgSolve_ok hy).1)
  exact ⟨Γ, hy⟩

/-! ## The flow -/

/-- The matrices `M` tend to `N`, entry by entry. -/
def M3.Tends (M : ι → M3) (F : Filter ι) (N : M3) : Prop :=
  V3.Tends (fun n => (M n).r0) F N.r0 ∧ V3.Tends (fun n => (M n).r1) F N.r1 ∧ V3.Tends (fun n => (M n).r2) F N.r2

namespace M3.Tends

variable {M M' : ι → M3} {N N' : M3}

theorem const (N : M3) : M3.Tends (fun _ : ι => N) F N := ⟨V3.Tends.const _, V3.Tends.const _, V3.Tends.const _⟩

theorem transpose (h : M3.Tends M F N) : M3.Tends (fun n => (M n).transpose) F N.transpose :=
  ⟨⟨h.1.1, h.2.1.1, h.2.2.1⟩, ⟨h.1.2.1, h.2.1.2.1, h.2.2.2.1⟩, ⟨h.1.2.2, h.2.1.2.2, h.2.2.2.2⟩⟩

theorem mulVec (h : M3.Tends M F N) {f : ι → V3} {v : V3} (hf : V3.Tends f F v) :
    V3.Tends (fun n => (M n).mulVec (f n)) F (N.mulVec v) := ⟨h.1.dot hf, h.2.1.dot hf, h.2.2.dot hf⟩

theorem mul (h : M3.Tends M F N) (h' : M3.Tends M' F N') : M3.Tends (fun n => (M n).mul (M' n)) F (N.mul N') :=
  ⟨h'.transpose.mulVec h.1, h'.transpose.mulVec h.2.1, h'.transpose.mulVec h.2.2⟩

end M3.Tends

/-- Rotations between axes of operating points with angles that tend to those of `op`. -/
theorem rotation_tends {o : ι → OperatingPoint} {op : OperatingPoint}
    (ha : Tendsto (fun n => (o n).alpha) F (𝓝 op.alpha)) (hb : Tendsto (fun n => (o n).beta) F (𝓝 op.beta)) :
    M3.Tends (fun n => (o n).rotationWindToGeometry) F op.rotationWindToGeometry := by
  have hr : ∀ {g : ι → ℝ} {k : ℝ}, Tendsto g F (𝓝 k) → Tendsto (fun n => radians (g n)) F (𝓝 (radians k)) := by
    intro g k h
    unfold radians
    exact (h.mul_const _).div_const _
  have sa := (Real.continuous_sin.tendsto _).comp (hr ha)
  have ca := (Real.continuous_cos.tendsto _).comp (hr ha)
  have sb := (Real.continuous_sin.tendsto _).comp (hr hb)
  have cb := (Real.continuous_cos.tendsto _).comp (hr hb)
  simp only [Function.comp_def] at sa ca sb cb
  have k : ∀ c : ℝ, Tendsto (fun _ : ι => c) F (𝓝 c) := fun c => tendsto_const_nhds
  have hA : M3.Tends (fun n => (o n).alphaRotation) F op.alphaRotation :=
    ⟨⟨ca, k 0, sa.neg⟩, ⟨k 0, k 1, k 0⟩, ⟨sa, k 0, ca⟩⟩
  have hB : M3.Tends (fun n => (o n).betaRotation) F op.betaRotation :=
    ⟨⟨cb, sb.neg, k 0⟩, ⟨sb, cb, k 0⟩, ⟨k 0, k 0, k 1⟩⟩
  exact (((M3.Tends.const _).mul hA).mul hB).mul (M3.Tends.const _)

/-! ## Problems that tend to a problem -/

/-- The problems `Q` tend to `P`. -/
structure Approach (F : Filter ι) (Q : ι → SteadyProblem) (P : SteadyProblem) : Prop where
  velocity : Tendsto (fun n => (Q n).operatingPoint.velocity) F (𝓝 P.operatingPoint.velocity)
  density : Tendsto (fun n => (Q n).operatingPoint.density) F (𝓝 P.operatingPoint.density)
  alpha : Tendsto (fun n => (Q n).operatingPoint.alpha) F (𝓝 P.operatingPoint.alpha)
  beta : Tendsto (fun n => (Q n).operatingPoint.beta) F (𝓝 P.operatingPoint.beta)
  references : ∀ (i : ℕ) a, P.airplanes[i]? = some a → ∃ b : ι → Airplane, (∀ n, (Q n).airplanes[i]? = some (b n)) ∧
    V3.Tends (fun n => (b n).xyzRef) F a.xyzRef ∧ Tendsto (fun n => (b n).sRef) F (𝓝 a.sRef) ∧
    Tendsto (fun n => (b n).cRef) F (𝓝 a.cRef) ∧ Tendsto (fun n => (b n).bRef) F (𝓝 a.bRef)
  span : ∀ r p, panelAt P.airplanes r = some p → Tendsto (fun n => ((wingAt (Q n).airplanes r).map (·.span)).getD 0) F
    (𝓝 (((wingAt P.airplanes r).map (·.span)).getD 0))
  panels : ∀ n r, (∃ p, panelAt P.airplanes r = some p) ↔ ∃ q, panelAt (Q n).airplanes r = some q
  made : ∀ a ∈ P.airplanes, a.Made
  made' : ∀ n, ∀ a ∈ (Q n).airplanes, a.Made
  frontLeft : ∀ r, V3.Tends (fun n => (geometryOf (Q n).airplanes r).frontLeft) F (geometryOf P.airplanes r).frontLeft
  frontRight : ∀ r, V3.Tends (fun n => (geometryOf (Q n).airplanes r).frontRight) F (geometryOf P.airplanes r).frontRight
  backLeft : ∀ r, V3.Tends (fun n => (geometryOf (Q n).airplanes r).backLeft) F (geometryOf P.airplanes r).backLeft
  backRight : ∀ r, V3.Tends (fun n => (geometryOf (Q n).airplanes r).backRight) F (geometryOf P.airplanes r).backRight

namespace Approach

variable {Q : ι → SteadyProblem} {P : SteadyProblem}

theorem rotation (h : Approach F Q P) : M3.Tends (fun n => (Q n).operatingPoint.rotationWindToGeometry) F
    P.operatingPoint.rotationWindToGeometry := rotation_tends h.alpha h.beta

theorem direction (h : Approach F Q P) : V3.Tends (fun n => (Q n).operatingPoint.freestreamDirection) F
    P.operatingPoint.freestreamDirection := h.rotation.mulVec (V3.Tends.const _)

theorem freestream (h : Approach F Q P) : V3.Tends (fun n => (Q n).operatingPoint.freestreamVelocity) F
    P.operatingPoint.freestreamVelocity := V3.Tends.smul h.velocity h.direction

theorem refs (h : Approach F Q P) (n : ι) : (panelRefs (Q n).airplanes).Perm ((panelRefs P.airplanes).map id) := by
  rw [List.map_id]
  apply (List.perm_ext_iff_of_nodup (panelRefs_nodup _) (panelRefs_nodup _)).mpr
  intro r
  rw [mem_panelRefs, mem_panelRefs]
  exact (h.panels n r).symm

theorem trailing (h : Approach F Q P) (n : ι) (r : PanelRef) :
    (geometryOf (Q n).airplanes r).isTrailingEdge = (geometryOf P.airplanes r).isTrailingEdge := by
  cases hp : panelAt P.airplanes r with
  | none =>
    cases hq : panelAt (Q n).airplanes r with
    | none => simp [geometryOf, hp, hq]
    | some q =>
      obtain ⟨p, hp'⟩ := (h.panels n r).mpr ⟨q, hq⟩
      rw [hp] at hp'; cases hp'
  | some p =>
    obtain ⟨q, hq⟩ := (h.panels n r).mp ⟨p, hp⟩
    rw [geometryOf_eq hp, geometryOf_eq hq, Bool.eq_iff_iff, (made_flags h.made hp).trailing,
      (made_flags (h.made' n) hq).trailing]
    have := h.panels n { r with row := r.row + 1 }
    rw [← Option.isSome_iff_exists, ← Option.isSome_iff_exists] at this
    rw [← Option.not_isSome_iff_eq_none, ← Option.not_isSome_iff_eq_none, this]

theorem frontLeftVertex (h : Approach F Q P) (r : PanelRef) :
    V3.Tends (fun n => (geometryOf (Q n).airplanes r).frontLeftVortexVertex) F
      (geometryOf P.airplanes r).frontLeftVortexVertex :=
  (h.frontLeft r).add (V3.Tends.smul tendsto_const_nhds ((h.backLeft r).sub (h.frontLeft r)))

theorem frontRightVertex (h : Approach F Q P) (r : PanelRef) :
    V3.Tends (fun n => (geometryOf (Q n).airplanes r).frontRightVortexVertex) F
      (geometryOf P.airplanes r).frontRightVortexVertex :=
  (h.backRight r).add (V3.Tends.smul tendsto_const_nhds ((h.frontRight r).sub (h.backRight r)))

theorem collocation (h : Approach F Q P) (r : PanelRef) :
    V3.Tends (fun n => (geometryOf (Q n).airplanes r).collocationPoint) F (geometryOf P.airplanes r).collocationPoint := by
  have h1 := (h.backRight r).add (V3.Tends.smul (tendsto_const_nhds (x := (0.25 : ℝ))) ((h.frontRight r).sub (h.backRight r)))
  have h2 := (h.frontLeft r).add (V3.Tends.smul (tendsto_const_nhds (x := (0.75 : ℝ))) ((h.backLeft r).sub (h.frontLeft r)))
  exact h1.add (V3.Tends.smul tendsto_const_nhds (h2.sub h1))

theorem normal (h : Approach F Q P) {r : PanelRef} (harea : 0 < (geometryOf P.airplanes r).area) :
    V3.Tends (fun n => (geometryOf (Q n).airplanes r).unitNormal) F (geometryOf P.airplanes r).unitNormal := by
  have hc := ((h.frontRight r).sub (h.backLeft r)).cross ((h.frontLeft r).sub (h.backRight r))
  refine V3.Tends.smul (Tendsto.div tendsto_const_nhds hc.norm ?_) hc
  have : (geometryOf P.airplanes r).area = (geometryOf P.airplanes r).crossDiagonals.norm / 2 := rfl
  rw [this] at harea
  exact (by linarith : 0 < (geometryOf P.airplanes r).crossDiagonals.norm).ne'

theorem backLeftVertex (h : Approach F Q P) (r : PanelRef) :
    V3.Tends (fun n => RingSolver.backLeftVertex (Q n).airplanes r) F (RingSolver.backLeftVertex P.airplanes r) := by
  unfold RingSolver.backLeftVertex
  simp only [h.trailing]
  cases (geometryOf P.airplanes r).isTrailingEdge with
  | true => exact (h.frontLeftVertex r).add ((h.backLeft r).sub (h.frontLeft r))
  | false => exact h.frontLeftVertex _

theorem backRightVertex (h : Approach F Q P) (r : PanelRef) :
    V3.Tends (fun n => RingSolver.backRightVertex (Q n).airplanes r) F (RingSolver.backRightVertex P.airplanes r) := by
  unfold RingSolver.backRightVertex
  simp only [h.trailing]
  cases (geometryOf P.airplanes r).isTrailingEdge with
  | true => exact (h.frontRightVertex r).add ((h.backRight r).sub (h.frontRight r))
  | false => exact h.frontRightVertex _

end Approach

theorem atCutOff_mk {A B q : V3} {g : ℝ} (h : ¬ AtCutOff (LineVortex.mk' A B g) q) :
    (A - q).norm ≠ eps ∧ (B - q).norm ≠ eps ∧ ((A - q).cross (B - q)).norm ^ 2 ≠ eps := by
  unfold AtCutOff at h
  push Not at h
  exact h

theorem horseshoe_tends {a b c d x : ι → V3} {a₀ b₀ c₀ d₀ x₀ : V3} (ha : V3.Tends a F a₀) (hb : V3.Tends b F b₀)
    (hc : V3.Tends c F c₀) (hd : V3.Tends d F d₀) (hx : V3.Tends x F x₀)
    (h1 : ¬ AtCutOff (LineVortex.mk' a₀ b₀ 0) x₀) (h2 : ¬ AtCutOff (LineVortex.mk' b₀ c₀ 0) x₀)
    (h3 : ¬ AtCutOff (LineVortex.mk' c₀ d₀ 0) x₀) :
    V3.Tends (fun n => unitVelocity (horseshoeLegs (a n) (b n) (c n) (d n)) (x n)) F
      (unitVelocity (horseshoeLegs a₀ b₀ c₀ d₀) x₀) := by
  obtain ⟨p1, p2, p3⟩ := atCutOff_mk h1
  obtain ⟨q1, q2, q3⟩ := atCutOff_mk h2
  obtain ⟨r1, r2, r3⟩ := atCutOff_mk h3
  simp only [unitVelocity, horseshoeLegs, List.map_cons, List.map_nil, List.sum_cons, List.sum_nil]
  exact (entry_tends ha hb hx p1 p2 p3).add ((entry_tends hb hc hx q1 q2 q3).add
    ((entry_tends hc hd hx r1 r2 r3).add (V3.Tends.const 0)))

theorem ring_tends {a b c d x : ι → V3} {a₀ b₀ c₀ d₀ x₀ : V3} (ha : V3.Tends a F a₀) (hb : V3.Tends b F b₀)
    (hc : V3.Tends c F c₀) (hd : V3.Tends d F d₀) (hx : V3.Tends x F x₀)
    (h1 : ¬ AtCutOff (LineVortex.mk' a₀ b₀ 0) x₀) (h2 : ¬ AtCutOff (LineVortex.mk' b₀ c₀ 0) x₀)
    (h3 : ¬ AtCutOff (LineVortex.mk' c₀ d₀ 0) x₀) (h4 : ¬ AtCutOff (LineVortex.mk' d₀ a₀ 0) x₀) :
    V3.Tends (fun n => unitVelocity (ringLegs (a n) (b n) (c n) (d n)) (x n)) F
      (unitVelocity (ringLegs a₀ b₀ c₀ d₀) x₀) := by
  obtain ⟨p1, p2, p3⟩ := atCutOff_mk h1
  obtain ⟨q1, q2, q3⟩ := atCutOff_mk h2
  obtain ⟨r1, r2, r3⟩ := atCutOff_mk h3
  obtain ⟨s1, s2, s3⟩ := atCutOff_mk h4
  simp only [unitVelocity, ringLegs, List.map_cons, List.map_nil, List.sum_cons, List.sum_nil]
  exact (entry_tends ha hb hx p1 p2 p3).add ((entry_tends hb hc hx q1 q2 q3).add
    ((entry_tends hc hd hx r1 r2 r3).add ((entry_tends hd ha hx s1 s2 s3).add (V3.Tends.const 0))))

namespace Approach

variable {Q : ι → SteadyProblem} {P : SteadyProblem}

theorem unit (h : Approach F Q P) (method : SteadyMethod) {r : PanelRef} {p : Panel} (hp : panelAt P.airplanes r = some p)
    {x : ι → V3} {x₀ : V3} (hx : V3.Tends x F x₀) (hcut : ∀ l, IsFilament method P l → ¬ AtCutOff l x₀) :
    V3.Tends (fun n => methodUnit method (Q n) r (x n)) F (methodUnit method P r x₀) := by
  have hspan : Tendsto (fun n => ((wingAt (Q n).airplanes r).map (·.span)).getD 0 * 20) F
      (𝓝 (((wingAt P.airplanes r).map (·.span)).getD 0 * 20)) := (h.span r p hp).mul_const 20
  cases method with
  | horseshoe =>
    have hf : ∀ l ∈ ((HorseshoeSolver.create P).panelVortex r).legs, ¬ AtCutOff l x₀ := fun l hl =>
      hcut l ⟨r, p, hp, hl⟩
    simp only [HorseshoeVortex.legs, List.mem_cons, List.not_mem_nil, or_false] at hf
    have hfr := h.frontRightVertex r
    have hfl := h.frontLeftVertex r
    exact horseshoe_tends (hfr.add (V3.Tends.smul hspan h.direction)) hfr hfl (hfl.add (V3.Tends.smul hspan h.direction)) hx
      (hf _ (Or.inl rfl)) (hf _ (Or.inr (Or.inl rfl))) (hf _ (Or.inr (Or.inr rfl)))
  | ring =>
    have hf : ∀ l ∈ (RingSolver.panelRing P.airplanes r).legs, ¬ AtCutOff l x₀ := fun l hl =>
      hcut l ⟨r, p, hp, Or.inl hl⟩
    simp only [RingVortex.legs, List.mem_cons, List.not_mem_nil, or_false] at hf
    have hfr := h.frontRightVertex r
    have hfl := h.frontLeftVertex r
    have hbr := h.backRightVertex r
    have hbl := h.backLeftVertex r
    have hring := ring_tends hbr hfr hfl hbl hx (hf _ (Or.inr (Or.inr (Or.inr rfl)))) (hf _ (Or.inl rfl))
      (hf _ (Or.inr (Or.inl rfl))) (hf _ (Or.inr (Or.inr (Or.inl rfl))))
    refine V3.Tends.add hring ?_
    have hA : ∀ S : SteadyProblem, (RingSolver.create S).airplanes = S.airplanes := fun _ => rfl
    unfold RingSolver.firstTrailing
    simp only [hA, h.trailing]
    cases hte : (geometryOf P.airplanes r).isTrailingEdge with
    | false =>
      have h0 : ({} : TrailingSlot).strength = 0 := rfl
      simp only [Bool.false_eq_true, if_false, h0, zero_smul]
      exact V3.Tends.const _
    | true =>
      rw [geometryOf_eq hp] at hte
      have hf : ∀ l ∈ ((RingSolver.create P).panelHorseshoe r).legs, ¬ AtCutOff l x₀ := fun l hl =>
        hcut l ⟨r, p, hp, Or.inr ⟨hte, hl⟩⟩
      simp only [HorseshoeVortex.legs, List.mem_cons, List.not_mem_nil, or_false] at hf
      refine V3.Tends.smul tendsto_const_nhds ?_
      exact horseshoe_tends (hbr.add (V3.Tends.smul hspan h.direction)) hbr hbl
        (hbl.add (V3.Tends.smul hspan h.direction)) hx
        (hf _ (Or.inl rfl)) (hf _ (Or.inr (Or.inl rfl))) (hf _ (Or.inr (Or.inr rfl)))

/-- The system of one of the problems, with the panels in the order of the limit. -/
theorem solve (h : Approach F Q P) (method : SteadyMethod) {n : ι} {Γ : PanelRef → ℝ}
    (hΓ : linalgSolve ((panelRefs P.airplanes).map fun i => (panelRefs P.airplanes).map fun j =>
        methodCoefficient method (Q n) i j)
      ((panelRefs P.airplanes).map (methodRhs (Q n))) = .ok ((panelRefs P.airplanes).map Γ)) (heap : PanelHeap)
    (loads : List AirplaneLoads) :
    ∃ R, steadyRun method (Q n) heap loads = .ok R ∧
      (∀ r p, panelAt P.airplanes r = some p → R.strength r = some (Γ r)) ∧
      ∀ q, R.velocity q = ((panelRefs P.airplanes).map fun r => Γ r • methodUnit method (Q n) r q).sum
        + (Q n).operatingPoint.freestreamVelocity := by
  obtain ⟨Γ', h1, h2⟩ := linalgSolve_similar (panelRefs_nodup (Q n).airplanes) id (h.refs n)
    (methodCoefficient method (Q n)) (methodCoefficient method (Q n)) (methodRhs (Q n)) (methodRhs (Q n)) (fun _ => 1) 1
    one_ne_zero (fun _ => by norm_num) (by intro i _ j _; rw [id, id]; ring) (by intro i _; rw [id]; ring) Γ hΓ
  obtain ⟨R, hR⟩ := steady_of_solve method (h.made' n) heap loads h1
  obtain ⟨Γ₂, g1, g2, g3⟩ := steady_values (h.made' n) hR
  have e := g1
  rw [h1] at e
  have e' := map_inj_left (Except.ok.inj e)
  have hst : ∀ r ∈ panelRefs P.airplanes, Γ₂ r = Γ r := by
    intro r hr
    rw [← e' r ((h.refs n).mem_iff.mpr (by rw [List.map_id]; exact hr))]
    have := h2 r hr
    rw [id] at this
    rw [this]; ring
  refine ⟨R, hR, ?_, ?_⟩
  · intro r p hp
    obtain ⟨p', hp'⟩ := (h.panels n r).mp ⟨p, hp⟩
    rw [g2 r p' hp', hst r ((mem_panelRefs _ _).mpr ⟨p, hp⟩)]
  · intro q
    rw [g3]
    congr 1
    rw [((h.refs n).map fun r => Γ₂ r • methodUnit method (Q n) r q).sum_eq, List.map_map]
    congr 1
    apply List.map_congr_left
    intro r hr
    simp only [Function.comp, id]
    rw [hst r hr]

/-- The force on a filament, if the velocity at its centre tends to a limit. -/
theorem side {ρ k : ι → ℝ} {ρ₀ k₀ : ℝ} {v : ι → V3 → V3} {v₀ : V3 → V3} {a b : ι → V3} {a₀ b₀ : V3}
    (hρ : Tendsto ρ F (𝓝 ρ₀)) (hk : Tendsto k F (𝓝 k₀)) (ha : V3.Tends a F a₀) (hb : V3.Tends b F b₀)
    (hv : ∀ x : ι → V3, V3.Tends x F ((LineVortex.mk' a₀ b₀ 0).center) →
      V3.Tends (fun n => v n (x n)) F (v₀ (LineVortex.mk' a₀ b₀ 0).center)) :
    V3.Tends (fun n => sideForce (ρ n) (k n) (v n) (a n) (b n)) F (sideForce ρ₀ k₀ v₀ a₀ b₀) := by
  have hc : (LineVortex.mk' a₀ b₀ 0).center = (1 / 2 : ℝ) • (a₀ + b₀) := by
    simp only [LineVortex.mk']; module
  have hm : V3.Tends (fun n => (1 / 2 : ℝ) • (a n + b n)) F ((1 / 2 : ℝ) • (a₀ + b₀)) :=
    V3.Tends.smul tendsto_const_nhds (ha.add hb)
  rw [hc] at hv
  exact V3.Tends.smul (hρ.mul hk) ((hv _ hm).cross (hb.sub ha))

theorem forces (h : Approach F Q P) (method : SteadyMethod) {ref : ι → V3} {ref₀ : V3} (href : V3.Tends ref F ref₀)
    {v : ι → V3 → V3} {v₀ : V3 → V3} {g : ι → PanelRef → ℝ} {g₀ : PanelRef → ℝ}
    (hv : ∀ (x : ι → V3) x₀, IsEvaluated method P x₀ → V3.Tends x F x₀ → V3.Tends (fun n => v n (x n)) F (v₀ x₀))
    (hg : ∀ r, Tendsto (fun n => g n r) F (𝓝 (g₀ r))) {r : PanelRef} {p : Panel} (hp : panelAt P.airplanes r = some p) :
    V3.Tends (fun n => (panelForceMoment method (Q n).airplanes (Q n).operatingPoint.density (ref n) (v n) (g n) r).1) F
      (panelForceMoment method P.airplanes P.operatingPoint.density ref₀ v₀ g₀ r).1 ∧
    V3.Tends (fun n => (panelForceMoment method (Q n).airplanes (Q n).operatingPoint.density (ref n) (v n) (g n) r).2) F
      (panelForceMoment method P.airplanes P.operatingPoint.density ref₀ v₀ g₀ r).2 := by
  have hmid : ∀ {a b : ι → V3} {a₀ b₀ : V3}, V3.Tends a F a₀ → V3.Tends b F b₀ →
      V3.Tends (fun n => (1 / 2 : ℝ) • (a n + b n) - ref n) F ((1 / 2 : ℝ) • (a₀ + b₀) - ref₀) := fun ha hb =>
    (V3.Tends.smul tendsto_const_nhds (ha.add hb)).sub href
  cases method with
  | horseshoe =>
    have hf := side h.density (hg r) (h.frontRightVertex r) (h.frontLeftVertex r) (v := v) (v₀ := v₀)
      (fun x hx => hv x _ ⟨r, p, hp, Or.inr rfl⟩ hx)
    exact ⟨hf, (hmid (h.frontRightVertex r) (h.frontLeftVertex r)).cross hf⟩
  | ring =>
    have hfr := h.frontRightVertex r
    have hfl := h.frontLeftVertex r
    have hbr := h.backRightVertex r
    have hbl := h.backLeftVertex r
    have h1 : Tendsto (fun n => g n r - (if r.row = 0 then 0 else g n { r with row := r.row - 1 })) F
        (𝓝 (g₀ r - (if r.row = 0 then 0 else g₀ { r with row := r.row - 1 }))) := by
      by_cases h : r.row = 0
      · simp only [h, if_true]
        exact (hg r).sub tendsto_const_nhds
      · simp only [h, if_false]
        exact (hg r).sub (hg _)
    have h2 : Tendsto (fun n => g n r - (if r.col = 0 then 0 else g n { r with col := r.col - 1 })) F
        (𝓝 (g₀ r - (if r.col = 0 then 0 else g₀ { r with col := r.col - 1 }))) := by
      by_cases h : r.col = 0
      · simp only [h, if_true]
        exact (hg r).sub tendsto_const_nhds
      · simp only [h, if_false]
        exact (hg r).sub (hg _)
    have h3 : Tendsto (fun n => g n r - g n { r with col := r.col + 1 }) F
        (𝓝 (g₀ r - g₀ { r with col := r.col + 1 })) := (hg r).sub (hg _)
    have f1 := side h.density h1 hfr hfl (v := v) (v₀ := v₀) (fun x hx => hv x _ ⟨r, p, hp, Or.inr (Or.inl rfl)⟩ hx)
    have f2 := side h.density h2 hfl hbl (v := v) (v₀ := v₀)
      (fun x hx => hv x _ ⟨r, p, hp, Or.inr (Or.inr (Or.inl rfl))⟩ hx)
    have f3 := side h.density h3 hbr hfr (v := v) (v₀ := v₀)
      (fun x hx => hv x _ ⟨r, p, hp, Or.inr (Or.inr (Or.inr rfl))⟩ hx)
    exact ⟨(f1.add f2).add f3, (((hmid hfr hfl).cross f1).add ((hmid hfl hbl).cross f2)).add ((hmid hbr hfr).cross f3)⟩

/-- The results of the problems tend to the results of the limit. -/
theorem limits [F.NeBot] (h : Approach F Q P) {method : SteadyMethod} {heap₀ : PanelHeap} {loads₀ : List AirplaneLoads}
    {R₀ : SteadyResults} (hR₀ : steadyRun method P heap₀ loads₀ = .ok R₀)
    (hcut : ∀ l q, IsFilament method P l → IsEvaluated method P q → ¬ AtCutOff l q)
    (heap : ι → PanelHeap) (loads : ι → List AirplaneLoads) :
    ∃ R : ι → SteadyResults, (∀ᶠ n in F, steadyRun method (Q n) (heap n) (loads n) = .ok (R n)) ∧
      (∀ r p, panelAt P.airplanes r = some p → ∃ (g₀ : ℝ) (g : ι → ℝ), R₀.strength r = some g₀ ∧
        (∀ᶠ n in F, (R n).strength r = some (g n)) ∧ Tendsto g F (𝓝 g₀)) ∧
      (∀ (x : ι → V3) x₀, (∀ l, IsFilament method P l → ¬ AtCutOff l x₀) → V3.Tends x F x₀ →
        V3.Tends (fun n => (R n).velocity (x n)) F (R₀.velocity x₀)) ∧
      (∀ r p, panelAt P.airplanes r = some p → V3.Tends (fun n => (R n).forceOf r) F (R₀.forceOf r) ∧
        V3.Tends (fun n => (R n).momentOf r) F (R₀.momentOf r)) := by
  obtain ⟨Γ₀, s1, s2, s3⟩ := steady_values h.made hR₀
  have harea : ∀ r p, panelAt P.airplanes r = some p → 0 < (geometryOf P.airplanes r).area := by
    intro r p hp
    rw [geometryOf_eq hp]
    refine (C91_steady P.airplanes h.made P.operatingPoint heap₀ loads₀ ?_ r p hp).1
    cases method with
    | horseshoe =>
      left
      simp only [steadyRun] at hR₀
      cases hr : (HorseshoeSolver.create P heap₀ loads₀).run with
      | error e => rw [hr] at hR₀; cases hR₀
      | ok s => exact ⟨s, rfl⟩
    | ring =>
      right
      simp only [steadyRun] at hR₀
      cases hr : (RingSolver.create P heap₀ loads₀).run with
      | error e => rw [hr] at hR₀; cases hR₀
      | ok s => exact ⟨s, rfl⟩
  have hA : ∀ i ∈ panelRefs P.airplanes, ∀ j ∈ panelRefs P.airplanes,
      Tendsto (fun n => methodCoefficient method (Q n) i j) F (𝓝 (methodCoefficient method P i j)) := by
    intro i hi j hj
    obtain ⟨p, hp⟩ := (mem_panelRefs _ _).mp hi
    obtain ⟨q, hq⟩ := (mem_panelRefs _ _).mp hj
    exact (h.unit method hq (h.collocation i) (fun l hl => hcut l _ hl ⟨i, p, hp, Or.inl (by rw [geometryOf_eq hp])⟩)).dot
      (h.normal (harea i p hp))
  have hb : ∀ i ∈ panelRefs P.airplanes, Tendsto (fun n => methodRhs (Q n) i) F (𝓝 (methodRhs P i)) := by
    intro i hi
    obtain ⟨p, hp⟩ := (mem_panelRefs _ _).mp hi
    exact (h.freestream.dot (h.normal (harea i p hp))).neg
  have hnear := solve_near' (panelRefs_nodup P.airplanes) hA s1 fun n => methodRhs (Q n)
  obtain ⟨Γ, hΓ⟩ := hnear.choice
  have hR : ∀ᶠ n in F, ∃ R, steadyRun method (Q n) (heap n) (loads n) = .ok R ∧
      (∀ r p, panelAt P.airplanes r = some p → R.strength r = some (Γ n r)) ∧
      ∀ q, R.velocity q = ((panelRefs P.airplanes).map fun r => Γ n r • methodUnit method (Q n) r q).sum
        + (Q n).operatingPoint.freestreamVelocity := by
    filter_upwards [hΓ] with n hn
    exact h.solve method hn (heap n) (loads n)
  have : Nonempty SteadyResults := ⟨R₀⟩
  obtain ⟨R, hR⟩ := hR.choice
  have hΓt := solve_tendsto' hA hb s1 hΓ
  have hvel : ∀ (x : ι → V3) x₀, (∀ l, IsFilament method P l → ¬ AtCutOff l x₀) → V3.Tends x F x₀ →
      V3.Tends (fun n => (R n).velocity (x n)) F (R₀.velocity x₀) := by
    intro x x₀ hc hx
    rw [s3]
    have hlim : V3.Tends (fun n => ((panelRefs P.airplanes).map fun r => Γ n r • methodUnit method (Q n) r (x n)).sum
        + (Q n).operatingPoint.freestreamVelocity) F (((panelRefs P.airplanes).map fun r => Γ₀ r •
          methodUnit method P r x₀).sum + P.operatingPoint.freestreamVelocity) := by
      refine V3.Tends.add (V3.Tends.listSum _ fun r hr => ?_) h.freestream
      obtain ⟨p, hp⟩ := (mem_panelRefs _ _).mp hr
      exact V3.Tends.smul (hΓt r hr) (h.unit method hp hx hc)
    refine hlim.congr' ?_
    filter_upwards [hR] with n hn
    exact (hn.2.2 _).symm
  refine ⟨R, hR.mono fun n hn => hn.1, ?_, hvel, ?_⟩
  · intro r p hp
    exact ⟨Γ₀ r, fun n => Γ n r, s2 r p hp, hR.mono fun n hn => hn.2.1 r p hp, hΓt r ((mem_panelRefs _ _).mpr ⟨p, hp⟩)⟩
  · intro r p hp
    obtain ⟨a, w, ha, -⟩ := panelAt_cell hp
    obtain ⟨b, hb1, hb2, -⟩ := h.references _ a ha
    obtain ⟨-, l1, l2⟩ := steady_loads_wind h.made hR₀ hp ha
    have hg : ∀ s : PanelRef, Tendsto (fun n => (R n).strengthIn (Q n).airplanes s) F
        (𝓝 (R₀.strengthIn P.airplanes s)) := by
      intro s
      unfold SteadyResults.strengthIn
      by_cases hs : ∃ q, panelAt P.airplanes s = some q
      · simp only [← h.panels, hs, if_true]
        obtain ⟨q, hq⟩ := hs
        rw [s2 s q hq]
        refine (hΓt _ ((mem_panelRefs _ _).mpr ⟨q, hq⟩)).congr' ?_
        filter_upwards [hR] with n hn
        rw [hn.2.1 s q hq]
        rfl
      · simp only [← h.panels, hs, if_false]
        exact tendsto_const_nhds
    have hlim := h.forces method hb2 (v := fun n => (R n).velocity) (v₀ := R₀.velocity)
      (fun x x₀ he hx => hvel x x₀ (fun l hl => hcut l x₀ hl he) hx) hg hp
    rw [l1, l2]
    have hl : ∀ᶠ n in F,
        (R n).forceOf r = (Q n).operatingPoint.rotationWindToGeometry.transpose.mulVec (panelForceMoment method
          (Q n).airplanes (Q n).operatingPoint.density (b n).xyzRef (R n).velocity
          ((R n).strengthIn (Q n).airplanes) r).1 ∧
        (R n).momentOf r = (Q n).operatingPoint.rotationWindToGeometry.transpose.mulVec (panelForceMoment method
          (Q n).airplanes (Q n).operatingPoint.density (b n).xyzRef (R n).velocity
          ((R n).strengthIn (Q n).airplanes) r).2 := by
      filter_upwards [hR] with n hn
      obtain ⟨p', hp'⟩ := (h.panels n r).mp ⟨p, hp⟩
      exact (steady_loads_wind (h.made' n) hn.1 hp' (hb1 n)).2
    exact ⟨(h.rotation.transpose.mulVec hlim.1).congr' (hl.mono fun n hn => hn.1.symm),
      (h.rotation.transpose.mulVec hlim.2).congr' (hl.mono fun n hn => hn.2.symm)⟩

/-- Problems that are nearer and nearer to a problem. -/
theorem of_near {Q : ι → SteadyProblem} {P : SteadyProblem} {δ : ι → ℝ} (hδ : Tendsto δ F (𝓝 0))
    (hn : ∀ n, P.Near (δ n) (Q n)) (hm : ∀ a ∈ P.airplanes, a.Made) (hm' : ∀ n, ∀ a ∈ (Q n).airplanes, a.Made) :
    Approach F Q P := by
  have num : ∀ {f : ι → ℝ} {c : ℝ}, (∀ n, |f n - c| < δ n) → Tendsto f F (𝓝 c) := by
    intro f c h
    have := squeeze_zero_norm (f := fun n => f n - c) (fun n => (h n).le) hδ
    have := this.add_const c
    simpa using this
  have vec : ∀ {f : ι → V3} {v : V3}, (∀ n, (f n - v).norm < δ n) → V3.Tends f F v := fun h =>
    V3.tends_of_norm (squeeze_zero (fun n => V3.norm_nonneg _) (fun n => (h n).le) hδ)
  have geo : ∀ (c : Panel → V3), (∀ δ p q, Panel.Near δ p q → (c q - c p).norm < δ) → ∀ r,
      V3.Tends (fun n => c (geometryOf (Q n).airplanes r)) F (c (geometryOf P.airplanes r)) := by
    intro c hc r
    cases hp : panelAt P.airplanes r with
    | none =>
      have e : ∀ n, geometryOf (Q n).airplanes r = geometryOf P.airplanes r := by
        intro n
        cases hq : panelAt (Q n).airplanes r with
        | none => simp [geometryOf, hp, hq]
        | some q =>
          obtain ⟨p, hp'⟩ := ((hn n).panels r).mpr ⟨q, hq⟩
          rw [hp] at hp'; cases hp'
      simp only [e]
      exact V3.Tends.const _
    | some p =>
      apply vec
      intro n
      obtain ⟨q, hq⟩ := ((hn n).panels r).mp ⟨p, hp⟩
      rw [geometryOf_eq hp, geometryOf_eq hq]
      exact hc _ _ _ ((hn n).vertices r p q hp hq)
  refine ⟨num fun n => (hn n).velocity, num fun n => (hn n).density, num fun n => (hn n).alpha, num fun n => (hn n).beta,
    ?_, ?_, fun n => (hn n).panels, hm, hm', geo (·.frontLeft) fun _ _ _ h => h.1, geo (·.frontRight) fun _ _ _ h => h.2.1,
    geo (·.backLeft) fun _ _ _ h => h.2.2.1, geo (·.backRight) fun _ _ _ h => h.2.2.2⟩
  · intro i a ha
    have hi : ∀ n, i < (Q n).airplanes.length := fun n => by
      rw [(hn n).airplanes]; exact (List.getElem?_eq_some_iff.mp ha).1
    have hr := fun n => (hn n).references i a _ ha (List.getElem?_eq_getElem (hi n))
    exact ⟨fun n => (Q n).airplanes[i]'(hi n), fun n => List.getElem?_eq_getElem (hi n), vec fun n => (hr n).1,
      num fun n => (hr n).2.1, num fun n => (hr n).2.2.1, num fun n => (hr n).2.2.2⟩
  · intro r p hp
    apply num
    intro n
    obtain ⟨q, hq⟩ := ((hn n).panels r).mp ⟨p, hp⟩
    obtain ⟨w, hw, -⟩ := Option.bind_eq_some_iff.mp hp
    obtain ⟨w', hw', -⟩ := Option.bind_eq_some_iff.mp hq
    rw [hw, hw']
    exact (hn n).spans r w w' hw hw'

end Approach

end Ptera
