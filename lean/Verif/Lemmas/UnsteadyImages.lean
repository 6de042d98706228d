import Verif.Lemmas.UnsteadySimilar
import Verif.Props.UnsteadyExample
import Verif.Props.UnsteadyLoads

/-! Loads of similar unsteady problems. -/

namespace Ptera

open UnsteadySolver

section

variable {p p' : UnsteadyProblem} {M : M3} {t : V3} {sw : ℕ → ℕ → Bool} {κ : ℝ} {ρ ω : ℕ → ℕ → ℕ}
  {pres : Bool} {s s₁ z z₁ : UnsteadySolver} {st sm zt zm : ℕ → UnsteadySolver}

namespace SimilarWingMotion

theorem panels_perm (hs : SimilarWingMotion p p' M t sw κ ρ ω) {k : ℕ} (hk : k < p.numSteps) :
    (panelRefs (p'.airplanesAt k)).Perm ((panelRefs (p.airplanesAt k)).map (imageRef (p.airplanesAt k) sw ρ ω)) :=
  (hs.similar k hk).airplanes.perm (hs.made.regular.made k) (hs.made'.regular.made k)

theorem coefficients (hs : SimilarWingMotion p p' M t sw κ ρ ω) {k : ℕ} (hk : k < p.numSteps) {i j : PanelRef}
    (hi : i ∈ panelRefs (p.airplanesAt k)) (hj : j ∈ panelRefs (p.airplanesAt k)) :
    (unitRing p' k (imageRef (p.airplanesAt k) sw ρ ω j)
        (geometryOf (p'.airplanesAt k) (imageRef (p.airplanesAt k) sw ρ ω i)).collocationPoint).dot
        (geometryOf (p'.airplanesAt k) (imageRef (p.airplanesAt k) sw ρ ω i)).unitNormal
      = orientation M (sw i.airplane i.wing) * orientation M (sw j.airplane j.wing)
        * (unitRing p k j (geometryOf (p.airplanesAt k) i).collocationPoint).dot (geometryOf (p.airplanesAt k) i).unitNormal := by
  obtain ⟨c, hc⟩ := (mem_panelRefs _ _).mp hi
  obtain ⟨d, hd⟩ := (mem_panelRefs _ _).mp hj
  obtain ⟨n1, n2⟩ := (hs.similar k hk).normal hc
  simp only at n1 n2
  rw [n1, n2, hs.unit hk hd, V3.smul_dot, V3.dot_smul, (hs.ortho hk).dot]
  ring

theorem apparent_image (hs : SimilarWingMotion p p' M t sw κ ρ ω) {k : ℕ} (hk : k < p.numSteps) {r : PanelRef}
    (hr : r ∈ panelRefs (p.airplanesAt k)) :
    apparent p' k (fun as => (geometryOf as (imageRef (p.airplanesAt k) sw ρ ω r)).collocationPoint)
      = M.mulVec (apparent p k fun as => (geometryOf as r).collocationPoint) := by
  unfold apparent
  by_cases h0 : k < 1
  · rw [if_pos h0, if_pos h0, M3.mulVec_zero]
  · rw [if_neg h0, if_neg h0]
    obtain ⟨c, hc⟩ := (mem_panelRefs _ _).mp hr
    have hr' := hr
    rw [panelRefs_same hs.made.regular hk (by omega : k - 1 < p.numSteps)] at hr'
    obtain ⟨d, hd⟩ := (mem_panelRefs _ _).mp hr'
    have e1 := ((hs.similar k hk).normal hc).1
    have e2 := ((hs.similar (k - 1) (by omega)).normal hd).1
    simp only at e1 e2
    rw [image_same hs.made.regular (by omega : k - 1 < p.numSteps) hk] at e2
    beta_reduce
    rw [e1, e2, hs.time, M3.mulVec_smul, M3.mulVec_neg, M3.mulVec_sub]
    congr 2
    abel

/-- The strengths of a step, given the wake it starts with. -/
theorem strengths (hs : SimilarWingMotion p p' M t sw κ ρ ω) (h : Trace p pres s s₁ st sm) (h' : Trace p' pres z z₁ zt zm)
    {k : ℕ} (hk : k < p.numSteps) (hw : ∀ q, wakeFlow z₁ k (M.mulVec q + t) = M.mulVec (wakeFlow s₁ k q)) :
    StrengthImages p p' M sw ρ ω s₁ z₁ k ∧ ∀ q, flow z₁ k (M.mulVec q + t) = M.mulVec (flow s₁ k q) := by
  have hk' : k < p'.numSteps := hk.trans_le hs.steps
  obtain ⟨Γ, hΓ, hring, hflow⟩ := h.values hs.made.regular hk
  obtain ⟨Γ', hΓ', hring', hflow'⟩ := h'.values hs.made'.regular hk'
  obtain ⟨Γ₁, hΓ₁, hsc⟩ := linalgSolve_similar (panelRefs_nodup (p'.airplanesAt k)) (imageRef (p.airplanesAt k) sw ρ ω)
    (hs.panels_perm hk)
    (fun i j => (unitRing p k j (geometryOf (p.airplanesAt k) i).collocationPoint).dot (geometryOf (p.airplanesAt k) i).unitNormal)
    (fun i j => (unitRing p' k j (geometryOf (p'.airplanesAt k) i).collocationPoint).dot (geometryOf (p'.airplanesAt k) i).unitNormal)
    (rhsAt p s₁ k) (rhsAt p' z₁ k) (fun r => orientation M (sw r.airplane r.wing)) 1 one_ne_zero
    (fun r => orientation_sq (hs.ortho hk) _) (fun i hi j hj => hs.coefficients hk hi hj)
    (by
      intro i hi
      obtain ⟨c, hc⟩ := (mem_panelRefs _ _).mp hi
      obtain ⟨n1, n2⟩ := (hs.similar k hk).normal hc
      simp only at n1 n2
      unfold rhsAt
      rw [n1, n2, hw, hs.velocity hk, hs.apparent_image hk hi, ← M3.mulVec_add, ← M3.mulVec_add, V3.dot_smul,
        (hs.ortho hk).dot]
      ring) Γ hΓ
  have hsc' : ∀ r ∈ panelRefs (p.airplanesAt k), Γ' (imageRef (p.airplanesAt k) sw ρ ω r)
      = orientation M (sw r.airplane r.wing) * Γ r := by
    intro r hr
    have hu : wingMatrix p' k = (panelRefs (p'.airplanesAt k)).map fun i => (panelRefs (p'.airplanesAt k)).map fun j =>
      (unitRing p' k j (geometryOf (p'.airplanesAt k) i).collocationPoint).dot (geometryOf (p'.airplanesAt k) i).unitNormal := rfl
    rw [hu, hΓ₁] at hΓ'
    have hmem := (hs.panels_perm hk).mem_iff.mpr (List.mem_map_of_mem hr)
    rw [← map_inj_left (Except.ok.inj hΓ') _ hmem, hsc r hr, _root_.one_mul]
  refine ⟨?_, ?_⟩
  · intro r hr
    refine ⟨Γ r, hring r hr, ?_⟩
    rw [hring' _ ((hs.panels_perm hk).mem_iff.mpr (List.mem_map_of_mem hr)), hsc' r hr]
  · intro q
    have hb : boundFlow z₁ k (M.mulVec q + t) = M.mulVec (boundFlow s₁ k q) := by
      rw [hflow, hflow', ((hs.panels_perm hk).map _).sum_eq, M3.mulVec_sum]
      simp only [List.map_map]
      congr 1
      apply List.map_congr_left
      intro r hr
      obtain ⟨c, hc⟩ := (mem_panelRefs _ _).mp hr
      simp only [Function.comp]
      rw [hsc' r hr, hs.unit hk hc, M3.mulVec_smul, smul_smul]
      congr 1
      linear_combination Γ r * orientation_sq (hs.ortho hk) (sw r.airplane r.wing)
    unfold flow
    rw [hb, hw, h.final_eq.2.2.2.2.2.2, h'.final_eq.2.2.2.2.2.2, hs.velocity hk, M3.mulVec_add, M3.mulVec_add]

/-- Wake, strengths and flow at every step. -/
theorem steps_similar (hs : SimilarWingMotion p p' M t sw κ ρ ω) (h : Trace p pres s s₁ st sm)
    (h' : Trace p' pres z z₁ zt zm) : ∀ k < p.numSteps, (0 < k → WakeImages p M t sw ρ ω s₁ z₁ k) ∧
      StrengthImages p p' M sw ρ ω s₁ z₁ k ∧ ∀ q, flow z₁ k (M.mulVec q + t) = M.mulVec (flow s₁ k q) := by
  intro k
  induction k using Nat.strong_induction_on with
  | _ k ih =>
    intro hk
    have hv : 0 < k → WakeImages p M t sw ρ ω s₁ z₁ k := by
      intro h0
      obtain ⟨m, rfl⟩ : ∃ m, k = m + 1 := ⟨k - 1, by omega⟩
      obtain ⟨h1, -, h3⟩ := ih m (by omega) (by omega)
      exact hs.next_vertices h h' hk h1 h3
    exact ⟨hv, hs.strengths h h' hk (hs.wake_flow h h' hk hv fun j hj => (ih j hj (by omega)).2.1)⟩


/-- The system of every step of the image can be solved. -/
theorem solvable (hs : SimilarWingMotion p p' M t sw κ ρ ω) (h : Trace p pres s s₁ st sm) {k : ℕ} (hk : k < p.numSteps)
    (b : List ℝ) (hb : b.length = (panelRefs (p'.airplanesAt k)).length) :
    ∃ x, linalgSolve (wingMatrix p' k) b = .ok x := by
  obtain ⟨Γ, hΓ, -⟩ := h.values hs.made.regular hk
  obtain ⟨x, hx⟩ := linalgSolve_all (panelRefs (p.airplanesAt k))
    (fun i j => (unitRing p k j (geometryOf (p.airplanesAt k) i).collocationPoint).dot (geometryOf (p.airplanesAt k) i).unitNormal)
    hΓ ((panelRefs (p.airplanesAt k)).map fun _ => 0) (by simp)
  obtain ⟨Γ₀, rfl⟩ := exists_values (panelRefs_nodup (p.airplanesAt k)) (x := x) (by simpa using (linalgSolve_ok hx).1)
  obtain ⟨Γ₁, hΓ₁, -⟩ := linalgSolve_similar (panelRefs_nodup (p'.airplanesAt k)) (imageRef (p.airplanesAt k) sw ρ ω)
    (hs.panels_perm hk)
    (fun i j => (unitRing p k j (geometryOf (p.airplanesAt k) i).collocationPoint).dot (geometryOf (p.airplanesAt k) i).unitNormal)
    (fun i j => (unitRing p' k j (geometryOf (p'.airplanesAt k) i).collocationPoint).dot (geometryOf (p'.airplanesAt k) i).unitNormal)
    (fun _ => 0) (fun _ => 0) (fun r => orientation M (sw r.airplane r.wing)) 1 one_ne_zero
    (fun r => orientation_sq (hs.ortho hk) _) (fun i hi j hj => hs.coefficients hk hi hj)
    (by intro i hi; simp) Γ₀ hx
  exact linalgSolve_all _ _ hΓ₁ b hb

end SimilarWingMotion

theorem IsImage.area {m : Bool} {q q' : Panel} (hM : M.IsOrtho) (h : IsImage M t m q q') : q'.area = q.area := by
  obtain ⟨h1, h2, h3, h4⟩ := h
  have hdet : |M.det| = 1 := by
    have := det_mul_det hM
    rw [← abs_one, ← sq_eq_sq_iff_abs_eq_abs]
    linarith
  unfold Panel.area
  simp only [Panel.crossDiagonals, Panel.firstDiagonal, Panel.secondDiagonal, h1, h2, h3, h4, add_sub_add_right_eq_sub,
    ← M3.mulVec_sub, hM.cross, V3.norm_smul, hdet, _root_.one_mul, hM.norm]
  cases m
  · simp
  · simp only [if_true]
    rw [V3.cross_anticomm, V3.norm_neg]

namespace SimilarWingMotion

/-- The middles of three sides of a ring and of its image. -/
theorem middles (hs : SimilarWingMotion p p' M t sw κ ρ ω) {k : ℕ} (hk : k < p.numSteps) {r : PanelRef} {q : Panel}
    (hq : panelAt (p.airplanesAt k) r = some q) (g g' : ℝ) :
    let v := (boundRing p k r).updateStrength g
    let v' := (boundRing p' k (imageRef (p.airplanesAt k) sw ρ ω r)).updateStrength g'
    v'.frontMiddle = M.mulVec v.frontMiddle + t ∧
    v'.leftMiddle = M.mulVec (if sw r.airplane r.wing then v.rightMiddle else v.leftMiddle) + t ∧
    v'.rightMiddle = M.mulVec (if sw r.airplane r.wing then v.leftMiddle else v.rightMiddle) + t := by
  obtain ⟨e1, e2, e3, e4⟩ := hs.ring hk hq
  simp only [RingVortex.updateStrength, RingVortex.frontMiddle, RingVortex.leftMiddle, RingVortex.rightMiddle, e1, e2, e3, e4]
  cases sw r.airplane r.wing <;> simp only [if_true, if_false, Bool.false_eq_true, M3.mulVec_smul, M3.mulVec_add] <;>
    refine ⟨?_, ?_, ?_⟩ <;> module

/-- The flow relative to a moving point of a ring. -/
theorem relative (hs : SimilarWingMotion p p' M t sw κ ρ ω) (h : Trace p pres s s₁ st sm) (h' : Trace p' pres z z₁ zt zm)
    {k : ℕ} (hk : k < p.numSteps) (hf : ∀ q, flow z₁ k (M.mulVec q + t) = M.mulVec (flow s₁ k q)) {r : PanelRef}
    (hr : r ∈ panelRefs (p.airplanesAt k)) (mid mid' : RingVortex → V3)
    (hmid : ∀ j < p.numSteps, ∀ g g', mid' ((boundRing p' j (imageRef (p.airplanesAt j) sw ρ ω r)).updateStrength g')
      = M.mulVec (mid ((boundRing p j r).updateStrength g)) + t) :
    relativeFlow z₁ k (imageRef (p.airplanesAt k) sw ρ ω r) mid' = M.mulVec (relativeFlow s₁ k r mid) := by
  have hpt : ∀ j < p.numSteps, ringPoint z₁ j (imageRef (p.airplanesAt k) sw ρ ω r) mid'
      = M.mulVec (ringPoint s₁ j r mid) + t := by
    intro j hj
    have hr' := hr
    rw [panelRefs_same hs.made.regular hk hj] at hr'
    obtain ⟨g, hg⟩ := h.rings hj hr'
    obtain ⟨g', hg'⟩ := h'.rings (j := j) (hj.trans_le hs.steps)
      ((hs.panels_perm hj).mem_iff.mpr (List.mem_map_of_mem hr'))
    rw [image_same hs.made.regular hk hj]
    unfold ringPoint
    rw [hg, hg']
    exact hmid j hj g g'
  unfold relativeFlow
  rw [hpt k hk, hf, M3.mulVec_sub]
  congr 1
  unfold pointVelocity
  cases k with
  | zero => simp only [M3.mulVec_zero]
  | succ k =>
    simp only
    rw [hpt _ hk, hpt k (by omega), h.final_eq.2.2.2.2.2.2, h'.final_eq.2.2.2.2.2.2, hs.time, M3.mulVec_smul, M3.mulVec_sub]
    congr 1
    abel

end SimilarWingMotion

/-- The force on a side and on its image. -/
theorem sideForce_image (hM : M.IsOrtho) (m : Bool) (κ d net : ℝ) (u a b : V3) :
    kuttaJoukowski (κ * d) (orientation M m * net) (M.mulVec u)
        (M.mulVec (if m then a else b) + t - (M.mulVec (if m then b else a) + t))
      = κ • M.mulVec (kuttaJoukowski d net u (b - a)) := by
  have hvec : M.mulVec (if m then a else b) + t - (M.mulVec (if m then b else a) + t)
      = (if m then (-1 : ℝ) else 1) • M.mulVec (b - a) := by
    rw [M3.mulVec_sub]
    cases m <;> simp only [if_true, if_false, Bool.false_eq_true] <;> module
  have hdd := orientation_sq hM m
  unfold kuttaJoukowski
  rw [hvec, V3.cross_smul, hM.cross, M3.mulVec_smul]
  simp only [smul_smul]
  congr 1
  unfold orientation at hdd ⊢
  linear_combination (κ * d * net) * hdd

namespace SimilarWingMotion

/-- The loads of a panel and of its image. -/
theorem panel_loads (hs : SimilarWingMotion p p' M t sw κ ρ ω) {sl sl' : Bool} (hr : Reached p s) (hz : Reached p' z)
    (hrun : s.run pres sl = .ok s₁) (hrun' : z.run pres sl' = .ok z₁) {k : ℕ} (hk : k < p.numSteps)
    (hfirst : p.firstResultsStep ≤ (k : ℤ)) (hfirst' : p'.firstResultsStep ≤ (k : ℤ)) (r : PanelRef) (q : Panel)
    (hq : panelAt (p.airplanesAt k) r = some q) :
    ∃ L L', (s₁.panels k r).loads = some L ∧ (z₁.panels k (imageRef (p.airplanesAt k) sw ρ ω r)).loads = some L' ∧
      L'.forceGeometry = κ • M.mulVec L.forceGeometry ∧
      ∀ A A', (p.airplanesAt k)[r.airplane]? = some A → (p'.airplanesAt k)[ρ r.airplane r.wing]? = some A' →
        L'.momentGeometry = (M.det * κ) • M.mulVec L.momentGeometry
          + (M.mulVec A.xyzRef + t - A'.xyzRef).cross L'.forceGeometry := by
  obtain ⟨st, sm, h⟩ := hr.trace hs.made hrun
  obtain ⟨zt, zm, h'⟩ := hz.trace hs.made' hrun'
  have hk' : k < p'.numSteps := hk.trans_le hs.steps
  have hM := hs.ortho hk
  have hsk := hs.similar k hk
  obtain ⟨-, hst, hf⟩ := hs.steps_similar h h' k hk
  have hmem : r ∈ panelRefs (p.airplanesAt k) := (mem_panelRefs _ _).mpr ⟨q, hq⟩
  have hstr : ∀ j < p.numSteps, ∀ r c, panelAt (p.airplanesAt j) r = some c →
      strengthAt (p'.airplanesAt j) (z₁.panels j) (imageRef (p.airplanesAt j) sw ρ ω r)
        = 1 * orientation M (sw r.airplane r.wing) * strengthAt (p.airplanesAt j) (s₁.panels j) r := by
    intro j hj r c hc
    obtain ⟨c', hc', -⟩ := (hs.similar j hj).airplanes.panel (hs.made.regular.made j) (hs.made'.regular.made j) hc
    obtain ⟨g, h1, h2⟩ := (hs.steps_similar h h' j hj).2.1 r ((mem_panelRefs _ _).mpr ⟨c, hc⟩)
    rw [strengthAt_some hc, strengthAt_some hc', h1, h2, _root_.one_mul]
    rfl
  obtain ⟨q', hq', himg⟩ := hsk.airplanes.panel (hs.made.regular.made k) (hs.made'.regular.made k) hq
  obtain ⟨A, w, hA, hw, -⟩ := panelAt_cell hq
  obtain ⟨A', _, hA', -⟩ := hsk.airplanes.wings _ A _ w hA hw
  obtain ⟨L, v, F, Lf, R, U, h1, h2, h3, h4, h5, h6, h7, h8⟩ := C35_unsteady hs.made hr hrun k hk hfirst r q A hq hA
  obtain ⟨L', v', F', Lf', R', U', g1, g2, g3, g4, g5, g6, g7, g8⟩ := C35_unsteady hs.made' hz hrun' k hk' hfirst'
    (imageRef (p.airplanesAt k) sw ρ ω r) q' A' hq' hA'
  obtain ⟨n1, n2, n3⟩ := hsk.nets (hstr k hk) hq
  obtain ⟨g, hv1, hv2⟩ := hst r hmem
  rw [h2, Option.some.injEq] at hv1
  rw [g2, Option.some.injEq] at hv2
  obtain ⟨e1, e2, e3, e4⟩ := hs.ring hk hq
  obtain ⟨m1, m2, m3⟩ := hs.middles hk hq g (orientation M (sw r.airplane r.wing) * g)
  have hprev : previousStrength z₁ k (imageRef (p.airplanesAt k) sw ρ ω r)
      = orientation M (sw r.airplane r.wing) * previousStrength s₁ k r := by
    cases k with
    | zero => simp [previousStrength]
    | succ k =>
      have hr' := hmem
      rw [panelRefs_same hs.made.regular hk (by omega : k < p.numSteps)] at hr'
      obtain ⟨c, hc⟩ := (mem_panelRefs _ _).mp hr'
      have := hstr k (by omega) r c hc
      rw [_root_.one_mul, image_same hs.made.regular (by omega : k < p.numSteps) hk] at this
      simp only [previousStrength]
      rw [h.final_eq.2.2.2.2.2.2, h'.final_eq.2.2.2.2.2.2]
      exact this
  have hfront := hs.relative h h' hk hf hmem RingVortex.frontMiddle RingVortex.frontMiddle (by
    intro j hj g g'
    have hr' := hmem
    rw [panelRefs_same hs.made.regular hk hj] at hr'
    obtain ⟨c, hc⟩ := (mem_panelRefs _ _).mp hr'
    exact (hs.middles hj hc g g').1)
  have hleft := hs.relative h h' hk hf hmem
    (if sw r.airplane r.wing then RingVortex.rightMiddle else RingVortex.leftMiddle) RingVortex.leftMiddle (by
    intro j hj g g'
    have hr' := hmem
    rw [panelRefs_same hs.made.regular hk hj] at hr'
    obtain ⟨c, hc⟩ := (mem_panelRefs _ _).mp hr'
    rw [(hs.middles hj hc g g').2.1]
    cases sw r.airplane r.wing <;> rfl)
  have hright := hs.relative h h' hk hf hmem
    (if sw r.airplane r.wing then RingVortex.leftMiddle else RingVortex.rightMiddle) RingVortex.rightMiddle (by
    intro j hj g g'
    have hr' := hmem
    rw [panelRefs_same hs.made.regular hk hj] at hr'
    obtain ⟨c, hc⟩ := (mem_panelRefs _ _).mp hr'
    rw [(hs.middles hj hc g g').2.2]
    cases sw r.airplane r.wing <;> rfl)
  have hden : (p'.operatingPointAt k).density = κ * (p.operatingPointAt k).density := hsk.density
  simp only at e1 e2 e3 e4 m1 m2 m3 n1 n2 n3
  refine ⟨L, L', h1, g1, ?_⟩
  subst hv1 hv2
  rw [hden, n1, hfront] at g3
  rw [hden, n2, hleft] at g4
  rw [hden, n3, hright] at g5
  rw [hden, hprev, hs.time, himg.area hM, himg.normal hM] at g6
  suffices hgoal : L'.forceGeometry = κ • M.mulVec L.forceGeometry ∧
      L'.momentGeometry = (M.det * κ) • M.mulVec L.momentGeometry
        + (M.mulVec A.xyzRef + t - A'.xyzRef).cross L'.forceGeometry by
    refine ⟨hgoal.1, fun B B' hB hB' => ?_⟩
    rw [hA] at hB
    rw [show (p'.airplanesAt k)[ρ r.airplane r.wing]? = some A' from hA'] at hB'
    cases hB
    cases hB'
    exact hgoal.2
  rw [g7, g8, h7, h8, himg.points.2.2, m1, m2, m3]
  simp only [RingVortex.updateStrength, e1, e2, e3, e4, _root_.one_mul] at g3 g4 g5 g6
  have hF : F' = κ • M.mulVec F := by
    rw [g3, h3]
    exact sideForce_image hM _ _ _ _ _ _ _
  have hU : U' = κ • M.mulVec U := by
    rw [g6, h6, M3.mulVec_smul, smul_smul, smul_smul]
    congr 1
    simp only [RingVortex.updateStrength]
    have := orientation_sq hM (sw r.airplane r.wing)
    linear_combination (κ * (p.operatingPointAt k).density * (g - previousStrength s₁ k r) * q.area / p.deltaTime) * this
  generalize hd : M.mulVec A.xyzRef + t - A'.xyzRef = d
  have href' : ∀ x : V3, M.mulVec x + t - A'.xyzRef = M.mulVec (x - A.xyzRef) + d := by
    intro x
    rw [M3.mulVec_sub, ← hd]
    abel
  have hcross : ∀ x f : V3, (M.mulVec x).cross (κ • M.mulVec f) = (M.det * κ) • M.mulVec (x.cross f) := by
    intro x f
    rw [V3.cross_smul, hM.cross, smul_smul, mul_comm κ]
  simp only [href']
  rcases Bool.eq_false_or_eq_true (sw r.airplane r.wing) with hm | hm
  rotate_left
  all_goals rw [hm] at g4 g5 ⊢
  · simp only [Bool.false_eq_true, if_false] at g4 g5 ⊢
    have hL : Lf' = κ • M.mulVec Lf := by
      rw [g4, h4]
      exact sideForce_image hM false _ _ _ _ _ _
    have hR : R' = κ • M.mulVec R := by
      rw [g5, h5]
      exact sideForce_image hM false _ _ _ _ _ _
    rw [hF, hL, hR, hU]
    refine ⟨by simp only [M3.mulVec_add, smul_add], ?_⟩
    simp only [V3.add_cross, hcross, M3.mulVec_add, smul_add, V3.cross_add]
    abel
  · simp only [if_true] at g4 g5 ⊢
    have hL : Lf' = κ • M.mulVec R := by
      rw [g4, h5]
      exact sideForce_image hM true _ _ _ _ _ _
    have hR : R' = κ • M.mulVec Lf := by
      rw [g5, h4]
      exact sideForce_image hM true _ _ _ _ _ _
    rw [hF, hL, hR, hU]
    refine ⟨by simp only [M3.mulVec_add, smul_add]; abel, ?_⟩
    simp only [V3.add_cross, hcross, M3.mulVec_add, smul_add, V3.cross_add]
    abel

end SimilarWingMotion

end
end Ptera
