import Verif.Lemmas.SymmetricMotion

/-! Helper lemmas: mirrored unsteady problems show mirrored steps. -/

namespace Ptera

open List UnsteadySolver

variable {p p' : UnsteadyProblem} {sw : ℕ → ℕ → Bool} {s s₁ z : UnsteadySolver} {pres sl : Bool}

theorem orientation_mirror (b : Bool) (x : ℝ) : orientation mirrorMatrix b * x = if b then x else -x := by
  cases b <;> simp [orientation, mirrorMatrix_det]

theorem SimilarUnsteady.mirrored (hs : SimilarUnsteady p p' mirrorMatrix 0 sw 1 id (fun _ => id))
    (hn : p'.numSteps ≤ p.numSteps) (hfirst : p'.firstResultsStep = p.firstResultsStep)
    (hop : ∀ k < p.numSteps, p'.operatingPointAt k = { p.operatingPointAt k with beta := -(p.operatingPointAt k).beta })
    (hdims : ∀ k < p.numSteps, ∀ (a : ℕ) A A', (p.airplanesAt k)[a]? = some A → (p'.airplanesAt k)[a]? = some A' →
      A'.sRef = A.sRef ∧ A'.cRef = A.cRef ∧ A'.bRef = A.bRef)
    (hr : Reached p s) (hrun : s.run pres sl = .ok s₁) (hz : Reached p' z) (sl' : Bool) :
    ∃ z₁, z.run pres sl' = .ok z₁ ∧ ∀ k < p.numSteps, StepMirrored p p' s₁ z₁ k := by
  obtain ⟨z₁, hrun'⟩ := hs.run_exists hr hrun hz hn pres sl'
  refine ⟨z₁, hrun', ?_⟩
  intro k hk
  obtain ⟨hf, hst, hw⟩ := hs.run_flow hr hrun hz hrun' k hk
  have hm := hs.made.regular.made k
  have hm' := hs.made'.regular.made k
  have hl := fun hfr : p.firstResultsStep ≤ (k : ℤ) => hs.run_loads (N := mirrorMatrix) hr hrun hz hrun' k hk
    (by rw [hop k hk]; exact mirror_rotation _) hfr (by rw [hfirst]; exact hfr)
  refine ⟨?_, ?_, ?_, ?_⟩
  · intro q
    have := hf q
    rwa [mirrorMatrix_mulVec, mirrorMatrix_mulVec, add_zero] at this
  · intro r c hc
    obtain ⟨v, v', h1, h2, h3⟩ := hst r c hc
    obtain ⟨c', hc', himg⟩ := (hs.similar k hk).airplanes.shapes.similarWings.panel hm hm' hc
    rw [orientation_mirror] at h3
    refine ⟨imageRef (p.airplanesAt k) sw (fun a _ => id a) (fun _ => id) r, c', sw r.airplane r.wing, v, v', rfl, rfl, rfl, hc', ?_, h1, h2, h3, ?_⟩
    · simp only [IsImage, mirrorMatrix_mulVec, add_zero] at himg
      exact himg
    · intro hfr
      obtain ⟨L, L', g1, g2, g3, g4, g5, g6⟩ := (hl hfr).1 r c hc
      rw [mirrorMatrix_mulVec] at g3 g4 g5 g6
      rw [mirrorMatrix_det] at g4 g6
      refine ⟨L, L', g1, g2, ?_, ?_, ?_, ?_⟩
      · rw [g3, one_smul]
      · rw [g4]; norm_num
      · rw [g5, one_smul]
      · rw [g6]; norm_num
  · intro c hc
    obtain ⟨w, w', h1, h2, h3, h4, h5, h6, h7, h8⟩ := hw c hc
    rw [orientation_mirror] at h7
    rw [mirrorMatrix_mulVec, add_zero] at h3 h4 h5 h6
    exact ⟨_, sw c.airplane c.wing, w, w', (hs.motion.wings.places_perm hk).mem_iff.mpr (List.mem_map_of_mem hc), rfl, rfl, rfl,
      h1, h2, h3, h4, h5, h6, h7, h8⟩
  · intro hfr a A hA
    obtain ⟨A', L, L', h1, h2, h3, h4, h5, ⟨a1, a2⟩, b1, b2⟩ := (hl hfr).2 a A hA
    rw [mirrorMatrix_mulVec] at h4 h5
    rw [mirrorMatrix_det] at h5
    have h4' : L'.forceWind = Ptera.mirrored L.forceWind := by rw [h4]; norm_num
    have h5' : L'.momentWind = -Ptera.mirrored L.momentWind := by rw [h5]; norm_num
    obtain ⟨r1, r2, r3⟩ := hdims k hk a A A' hA h1
    simp only [r1, r2, r3, h4', h5', hop k hk] at b1 b2
    refine ⟨L, L', h2, h3, h4', h5', ?_, ?_⟩
    · rw [b1, a1]
      ext <;> simp [Ptera.mirrored, neg_div]
    · rw [b2, a2]
      ext <;> simp [Ptera.mirrored, neg_div]

/-- Left and right are exchanged on the wings built with `symmetric=True`. -/
noncomputable def swappedBy (ams : List AirplaneMovement) (a w : ℕ) : Bool :=
  ((ams[a]?.bind (·.wingMovements[w]?)).map (·.base.spec.symmetric)).getD false

variable {ams : List AirplaneMovement} {om : OperatingPointMovement} {ns nc nch : Option ℕ} {dt : Option ℝ}
  {only : Bool}

/-- The airplanes of a study of symmetric movements are their own mirror images, and wings with two sides have no
gaps. -/
theorem symmetric_airplanes (h : study ams om ns nc nch dt only = .ok p) (hsym : ∀ m ∈ ams, m.Symmetric) (k : ℕ)
    (hk : k < p.numSteps) :
    SimilarAirplanes (p.airplanesAt k) (p.airplanesAt k) mirrorMatrix 0 (swappedBy ams) id (fun _ => id) ∧
    ∀ a w, swappedBy ams a w = true → SidesShared (p.airplanesAt k) a w := by
  obtain ⟨-, -, -, -, -, -, -, -, H, O, hH, -, hcol⟩ := study_parts h
  obtain ⟨hcol, -⟩ := hcol k hk
  have key : ∀ (a : ℕ) A, (p.airplanesAt k)[a]? = some A → A.xyzRef.y = 0 ∧ ∀ (w : ℕ) W, A.wings[w]? = some W →
      SelfMirrored (swappedBy ams a w) W ∧ (swappedBy ams a w = true → ∀ i j p q, cell W.panels i j = some p →
        cell W.panels i (j + 1) = some q → p.frontRight = q.frontLeft ∧ p.backRight = q.backLeft) := by
    intro a A hA
    have haH : a < H.length := by rw [hcol.length_eq]; exact (List.getElem?_eq_some_iff.mp hA).1
    have ham : a < ams.length := by rw [← mapM_length hH]; exact haH
    obtain ⟨hist, hhist, hgen⟩ := mapM_getElem? hH a _ (List.getElem?_eq_getElem ham)
    obtain ⟨A', hA', hk'⟩ := forall₂_at hcol a hist hhist
    rw [hA, Option.some.injEq] at hA'
    subst hA'
    obtain ⟨sx, sy, sw⟩ := hsym ams[a] (List.getElem_mem ham)
    obtain ⟨xs, ys, zs, ws, g1, g2, g3, g4, gl, gk⟩ := AirplaneMovement.generate_ok hgen
    obtain ⟨B, e1, e2⟩ := gk k hk
    rw [hk', Option.some.injEq] at e1
    subst e1
    have hy0 : ys.getD k 0 = 0 := by rw [Oscillation.values_constant sy g2 hk, sx]
    have hwings : A.wings = ws.filterMap (·[k]?) ∧ A.xyzRef = ⟨xs.getD k 0, ys.getD k 0, zs.getD k 0⟩ := by
      unfold Airplane.create at e2
      split at e2
      · cases e2
      · cases e2
        exact ⟨rfl, rfl⟩
    refine ⟨by rw [hwings.2]; exact hy0, ?_⟩
    intro w W hW
    rw [hwings.1, column_getElem? ws k (by
      intro l hl
      obtain ⟨wm, -, hwm⟩ := mapM_mem' g4 hl
      rw [(WingMovement.generate_dims hwm).1]; exact hk)] at hW
    obtain ⟨l, hl, hlk⟩ := Option.bind_eq_some_iff.mp hW
    have hwm : w < (ams[a]).wingMovements.length := by
      rw [← mapM_length g4]; exact (List.getElem?_eq_some_iff.mp hl).1
    obtain ⟨l', hl', hgw⟩ := mapM_getElem? g4 w _ (List.getElem?_eq_getElem hwm)
    rw [hl, Option.some.injEq] at hl'
    subst hl'
    have hb : swappedBy ams a w = ((ams[a]).wingMovements[w]).base.spec.symmetric := by
      unfold swappedBy
      rw [List.getElem?_eq_getElem ham, Option.bind_some, List.getElem?_eq_getElem hwm]
      rfl
    rw [hb]
    exact (sw _ (List.getElem_mem hwm)).wing hgw hlk
  refine ⟨⟨mirrorMatrix_ortho, ?_, fun a ha => ⟨a, ha, rfl⟩, fun _ _ _ _ h => h⟩, ?_⟩
  · intro a A hA
    obtain ⟨hy, hw⟩ := key a A hA
    refine ⟨A, hA, ?_, ?_, fun w' h => ⟨w', h, rfl⟩, fun _ _ _ _ h => h⟩
    · rw [mirrorMatrix_mulVec, add_zero]
      ext <;> simp [Ptera.mirrored, hy]
    · intro w W hW
      refine ⟨W, hW, rfl, rfl, rfl, ?_⟩
      intro i j p p' hp hp'
      obtain ⟨q1, q2, q3, q4⟩ := (hw w W hW).1 i j p p' hp hp'
      simp only [IsImage, mirrorMatrix_mulVec, add_zero]
      exact ⟨q1, q2, q3, q4⟩
  · intro a w hsw i j p q hp hq
    obtain ⟨A, W, hA, hW, hc⟩ := panelAt_cell hp
    obtain ⟨A', W', hA', hW', hc'⟩ := panelAt_cell hq
    simp only at hA hA' hW hW' hc hc'
    rw [hA, Option.some.injEq] at hA'
    subst hA'
    rw [hW, Option.some.injEq] at hW'
    subst hW'
    exact ((key a A hA).2 w W hW).2 hsw i j p q hc hc'

end Ptera
