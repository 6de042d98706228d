import Verif.Lemmas.RegroupedStudy

/-!
# How wings are grouped into airplanes

C94: whether wings belong to one airplane or to several makes no difference to the flow, the strengths, the forces on
the panels, or the total force and moment on everything.
-/

namespace Ptera

open List UnsteadySolver

/-- C94: with the same wings distributed among airplanes in another way, a steady run succeeds just the same, the
velocity is the same at every point, and every panel has the same vortex strength and force; its moment changes by
what the change of its reference point makes of its force. The total force on all airplanes is the same, and so is the
total moment about any common point. -/
theorem C94_steady (method : SteadyMethod) (op : OperatingPoint) (as as' : List Airplane) (hmade : ∀ a ∈ as, a.Made)
    (hmade' : ∀ a ∈ as', a.Made) (ρ ω : ℕ → ℕ → ℕ) (hre : Regrouped as as' ρ ω)
    (heap heap' : PanelHeap) (loads loads' : List AirplaneLoads) (R : SteadyResults)
    (h : steadyRun method ⟨as, op⟩ heap loads = .ok R) :
    ∃ R', steadyRun method ⟨as', op⟩ heap' loads' = .ok R' ∧
      (∀ q, R'.velocity q = R.velocity q) ∧
      (∀ r p, panelAt as r = some p →
        panelAt as' ⟨ρ r.airplane r.wing, ω r.airplane r.wing, r.row, r.col⟩ = some p ∧
        ∃ (g : ℝ) (L L' : PanelLoads), R.strength r = some g ∧
          R'.strength ⟨ρ r.airplane r.wing, ω r.airplane r.wing, r.row, r.col⟩ = some g ∧
          R.loads r = some L ∧ R'.loads ⟨ρ r.airplane r.wing, ω r.airplane r.wing, r.row, r.col⟩ = some L' ∧
          L'.forceGeometry = L.forceGeometry ∧ L'.forceWind = L.forceWind ∧
          ∀ A A', as[r.airplane]? = some A → as'[ρ r.airplane r.wing]? = some A' →
            L'.momentGeometry = L.momentGeometry + (A.xyzRef - A'.xyzRef).cross L.forceGeometry) ∧
      R.totals.length = as.length ∧ R'.totals.length = as'.length ∧
      allForces R'.totals = allForces R.totals ∧
      allMomentsAboutOrigin op as' R'.totals = allMomentsAboutOrigin op as R.totals ∧
      ((∀ A ∈ as, ∀ A' ∈ as', A'.xyzRef = A.xyzRef) → allMoments R'.totals = allMoments R.totals) := by
  have hs : SimilarLattices ⟨as, op⟩ ⟨as', op⟩ M3.one 0 (fun _ _ => false) 1 1 ρ ω :=
    { airplanes := SimilarWings.of_regrouped hre
      made := hmade
      made' := hmade'
      nonzero := one_ne_zero
      direction := by rw [one_mulVec]
      velocity := by rw [one_mulVec, one_smul]
      density := (_root_.one_mul _).symm }
  have hdet : M3.one.det = 1 := one_isRot.2
  obtain ⟨R', hR', hv, hp⟩ := steady_similar_lattices (N := M3.one) method hs
    (by rw [M3.mul_one, M3.one_mul]) h heap' loads'
  have hp' : ∀ r p, panelAt as r = some p → ∃ g L L', R.strength r = some g ∧
      R'.strength ⟨ρ r.airplane r.wing, ω r.airplane r.wing, r.row, r.col⟩ = some g ∧
      R.loads r = some L ∧ R'.loads ⟨ρ r.airplane r.wing, ω r.airplane r.wing, r.row, r.col⟩ = some L' ∧
      L'.forceGeometry = L.forceGeometry ∧ L'.forceWind = L.forceWind ∧
      ∀ A A', as[r.airplane]? = some A → as'[ρ r.airplane r.wing]? = some A' →
        L'.momentGeometry = L.momentGeometry + (A.xyzRef - A'.xyzRef).cross L.forceGeometry ∧
        L'.momentWind = L.momentWind
          + (op.rotationWindToGeometry.transpose.mulVec (A.xyzRef - A'.xyzRef)).cross L.forceWind := by
    intro r p hr
    obtain ⟨g, L, L', h1, h2, h3, h4, h5, h6, h7⟩ := hp r p hr
    rw [orientation_one] at h2
    rw [one_mulVec] at h5 h6
    norm_num at h2 h5 h6
    refine ⟨g, L, L', h1, h2, h3, h4, h5, h6, ?_⟩
    intro A A' hA hA'
    obtain ⟨m1, m2⟩ := h7 A A' hA hA'
    rw [hdet, one_mulVec, one_mulVec, add_zero, h5] at m1
    rw [hdet, one_mulVec, one_mulVec, add_zero, h6] at m2
    norm_num at m1 m2
    exact ⟨m1, m2⟩
  have len := steadyRun_totals_length method ⟨as, op⟩ hmade heap loads R h
  have len' := steadyRun_totals_length method ⟨as', op⟩ hmade' heap' loads' R' hR'
  refine ⟨R', hR', ?_, ?_, len, len', ?_⟩
  · intro q
    have := hv q
    rwa [one_mulVec, one_mulVec, add_zero, one_smul] at this
  · intro r p hr
    obtain ⟨g, L, L', h1, h2, h3, h4, h5, h6, h7⟩ := hp' r p hr
    exact ⟨hre.panelAt hr, g, L, L', h1, h2, h3, h4, h5, h6, fun A A' hA hA' => (h7 A A' hA hA').1⟩
  · refine totals_regrouped (Q := R.loads) (Q' := R'.loads) hmade hmade' hre len len' ?_ ?_ ?_
    · intro a A hA
      obtain ⟨L, P, h1, h2, h3, h4, -⟩ := steadyRun_totals method ⟨as, op⟩ hmade heap loads R h a A hA
      exact ⟨L, P, h1, fun r hr => (h2 r hr).1, h3, h4⟩
    · intro a A hA
      obtain ⟨L, P, h1, h2, h3, h4, -⟩ := steadyRun_totals method ⟨as', op⟩ hmade' heap' loads' R' hR' a A hA
      exact ⟨L, P, h1, fun r hr => (h2 r hr).1, h3, h4⟩
    · intro r c hc
      obtain ⟨g, L, L', -, -, h3, h4, -, h6, h7⟩ := hp' r c hc
      exact ⟨L, L', h3, h4, h6, fun A A' hA hA' => (h7 A A' hA hA').2⟩

/-- C94: whenever two lists of airplanes have the same wings altogether, in whatever order and grouping, their wings can
be matched one to one, so the other theorems apply. -/
theorem C94_same_wings (as as' : List Airplane) (h : as.flatMap (·.wings) ~ as'.flatMap (·.wings)) :
    ∃ ρ ω, Regrouped as as' ρ ω := regrouped_of_perm h

/-- The hypotheses are met: two airplanes of one plate each, and one airplane with both plates. -/
example : ∃ (u v : Wing) (R R' : SteadyResults), u.Made ∧ v.Made ∧ u ≠ v ∧
    steadyRun .ring ⟨[TwoPlates.airplane [u], TwoPlates.airplane [v]], TwoPanels.upFlow 1⟩ = .ok R ∧
    steadyRun .ring ⟨[TwoPlates.airplane [u, v]], TwoPanels.upFlow 1⟩ = .ok R' ∧
    (∀ q, R'.velocity q = R.velocity q) ∧
    allForces R'.totals = allForces R.totals ∧ allMoments R'.totals = allMoments R.totals := by
  obtain ⟨u, v, hu, hv, hup, hvp⟩ := TwoPlates.wings
  have ma : (TwoPlates.airplane [u]).Made := TwoPlates.airplane_made (by simpa using hu)
  have mb : (TwoPlates.airplane [v]).Made := TwoPlates.airplane_made (by simpa using hv)
  have mc : (TwoPlates.airplane [u, v]).Made := TwoPlates.airplane_made (by simpa using ⟨hu, hv⟩)
  obtain ⟨s, -, -, hs, -⟩ := TwoPanels.run (as := [TwoPlates.airplane [u], TwoPlates.airplane [v]])
    (r₀ := ⟨0, 0, 0, 0⟩) (r₁ := ⟨1, 0, 0, 0⟩) (m₀ := 1) (m₁ := 1) (j₀ := 0) (j₁ := 0) (by simpa using ⟨ma, mb⟩)
    (by simp [panelRefs, airplaneRefs, TwoPlates.airplane, hup, hvp, List.zipIdx])
    (by simp [panelAt, wingAt, TwoPlates.airplane, hup]) (by simp [panelAt, wingAt, TwoPlates.airplane, hvp]) .fresh []
  have hR : steadyRun .ring ⟨[TwoPlates.airplane [u], TwoPlates.airplane [v]], TwoPanels.upFlow 1⟩ = .ok s.results := by
    simp only [steadyRun, hs]; rfl
  obtain ⟨ρ, ω, hre⟩ := C94_same_wings [TwoPlates.airplane [u], TwoPlates.airplane [v]] [TwoPlates.airplane [u, v]]
    (by simp [TwoPlates.airplane])
  obtain ⟨R', hR', h1, -, -, -, h2, -, h3⟩ := C94_steady .ring _ _ _ (by simpa using ⟨ma, mb⟩) (by simpa using mc) _ _
    hre .fresh .fresh [] [] _ hR
  refine ⟨u, v, _, R', hu, hv, ?_, hR, hR', h1, h2, h3 (by simp [TwoPlates.airplane])⟩
  intro h
  rw [h, hvp] at hup
  simp [stripPanel] at hup

/-- C94: with the same wings distributed among airplanes in another way at every step, an unsteady run succeeds just the
same, and every step shows the same flow, wake, strengths, forces on the panels, and total force and moment. -/
theorem C94_unsteady (p p' : UnsteadyProblem) (hmade : p.Made) (hmade' : p'.Made) (hc : p.Chordwise)
    (hn : p'.numSteps = p.numSteps) (hd : p'.deltaTime = p.deltaTime) (hf : p'.firstResultsStep = p.firstResultsStep)
    (hop : ∀ k < p.numSteps, p'.operatingPointAt k = p.operatingPointAt k) (ρ ω : ℕ → ℕ → ℕ)
    (hre : ∀ k < p.numSteps, Regrouped (p.airplanesAt k) (p'.airplanesAt k) ρ ω) (s s₁ z : UnsteadySolver)
    (prescribed streamlines streamlines' : Bool) (hr : Reached p s) (hrun : s.run prescribed streamlines = .ok s₁)
    (hz : Reached p' z) :
    ∃ z₁, z.run prescribed streamlines' = .ok z₁ ∧ ∀ k < p.numSteps, StepRegrouped p p' ρ ω s₁ z₁ k := by
  have hs : SimilarWingMotion p p' M3.one 0 (fun _ _ => false) 1 ρ ω :=
    { made := hmade, made' := hmade', chordwise := hc, steps := hn.ge, time := hd
      similar := by
        intro k hkn
        exact {
          airplanes := SimilarWings.of_regrouped (hre k hkn)
          made := hmade.regular.made k
          made' := hmade'.regular.made k
          nonzero := one_ne_zero
          direction := by simp only [hop k hkn, one_mulVec]
          velocity := by simp only [hop k hkn, one_mulVec, one_smul]
          density := by simp only [hop k hkn, _root_.one_mul] }
      nu := by intro k hkn; rw [hop k hkn]
      shared := by intro k _ a w hw; cases hw }
  obtain ⟨z₁, hrun'⟩ := hs.run_exists hr hrun hz hn.le prescribed streamlines'
  refine ⟨z₁, hrun', ?_⟩
  intro k hkn
  have hkn' : k < p'.numSteps := by omega
  obtain ⟨hfl, hst, hw⟩ := hs.run_flow hr hrun hz hrun' k hkn
  have hdet : M3.one.det = 1 := one_isRot.2
  have hl := fun hfr : p.firstResultsStep ≤ (k : ℤ) => hs.run_panel_loads (N := M3.one) hr hrun hz hrun' k hkn
    (by rw [M3.mul_one, M3.one_mul, hop k hkn]) hfr (by rw [hf]; exact hfr)
  have hl' : p.firstResultsStep ≤ (k : ℤ) → ∀ r c, panelAt (p.airplanesAt k) r = some c → ∃ L L',
      (s₁.panels k r).loads = some L ∧
      (z₁.panels k ⟨ρ r.airplane r.wing, ω r.airplane r.wing, r.row, r.col⟩).loads = some L' ∧
      L'.forceGeometry = L.forceGeometry ∧ L'.forceWind = L.forceWind ∧
      ∀ A A', (p.airplanesAt k)[r.airplane]? = some A → (p'.airplanesAt k)[ρ r.airplane r.wing]? = some A' →
        L'.momentGeometry = L.momentGeometry + (A.xyzRef - A'.xyzRef).cross L.forceGeometry ∧
        L'.momentWind = L.momentWind
          + ((p.operatingPointAt k).rotationWindToGeometry.transpose.mulVec (A.xyzRef - A'.xyzRef)).cross L.forceWind := by
    intro hfr r c hc
    obtain ⟨L, L', h3, h4, h5, h6, h7⟩ := hl hfr r c hc
    rw [one_mulVec, one_smul] at h5 h6
    refine ⟨L, L', h3, h4, h5, h6, ?_⟩
    intro A A' hA hA'
    obtain ⟨m1, m2⟩ := h7 A A' hA hA'
    rw [hdet, one_mulVec, one_mulVec, add_zero, h5, _root_.one_mul, one_smul] at m1
    rw [hdet, one_mulVec, one_mulVec, add_zero, h6, hop k hkn, _root_.one_mul, one_smul] at m2
    exact ⟨m1, m2⟩
  refine ⟨?_, ?_, ?_, ?_⟩
  · intro q
    have := hfl q
    rwa [one_mulVec, one_mulVec, add_zero] at this
  · intro r c hc
    refine ⟨(hre k hkn).panelAt hc, ?_, ?_⟩
    · obtain ⟨v, v', h1, h2, h3⟩ := hst r c hc
      rw [orientation_one, _root_.one_mul] at h3
      exact ⟨v, v', h1, h2, h3⟩
    · intro hfr
      obtain ⟨L, L', h3, h4, h5, h6, h7⟩ := hl' hfr r c hc
      exact ⟨L, L', h3, h4, h5, h6, fun A A' hA hA' => (h7 A A' hA hA').1⟩
  · intro c hc
    refine ⟨(hs.places_perm hkn).mem_iff.mpr (List.mem_map_of_mem hc), ?_⟩
    obtain ⟨w, w', h1, h2, h3, h4, h5, h6, h7, h8⟩ := hw c hc
    refine ⟨w, h1, ?_⟩
    have e : placeImage p (fun _ _ => false) ρ ω k c = ⟨ρ c.airplane c.wing, ω c.airplane c.wing, c.row, c.col⟩ := rfl
    rw [e] at h2
    rw [h2]
    simp only [Bool.false_eq_true, if_false, one_mulVec, orientation_one, _root_.one_mul, add_zero] at h3 h4 h5 h6 h7
    congr 1
    cases w'
    simp only at h3 h4 h5 h6 h7 h8
    subst h3 h4 h5 h6 h7 h8
    rfl
  · intro hfr
    have hfr' : p'.firstResultsStep ≤ (k : ℤ) := by rw [hf]; exact hfr
    have len := (C37_unsteady_steps hmade hr hrun k hkn).1 hfr
    have len' := (C37_unsteady_steps hmade' hz hrun' k hkn').1 hfr'
    refine ⟨len, len', ?_⟩
    rw [hop k hkn]
    refine totals_regrouped (Q := fun r => (s₁.panels k r).loads) (Q' := fun r => (z₁.panels k r).loads)
      (hmade.regular.made k) (hmade'.regular.made k) (hre k hkn) len len' ?_ ?_ ?_
    · intro a A hA
      obtain ⟨L, P, h1, h2, h3, h4, -⟩ := C37_unsteady hmade hr hrun k hkn hfr a A hA
      exact ⟨L, P, h1, fun r hr => (h2 r hr).1, h3, h4⟩
    · intro a A hA
      obtain ⟨L, P, h1, h2, h3, h4, -⟩ := C37_unsteady hmade' hz hrun' k hkn' hfr' a A hA
      exact ⟨L, P, h1, fun r hr => (h2 r hr).1, h3, h4⟩
    · intro r c hc
      obtain ⟨L, L', h3, h4, -, h6, h7⟩ := hl' hfr r c hc
      exact ⟨L, L', h3, h4, h6, fun A A' hA hA' => (h7 A A' hA hA').2⟩

/-- C94: with the same wing movements distributed among airplanes in another way, all airplanes having the same reference
point moving alike, a study is accepted just the same and has as many steps, its run succeeds just the same, and every
step shows the same flow, wake, strengths, loads of the panels, and total force and moment. The time step has to be
given, and in a study in which nothing has a period also the number of steps: their defaults come from how the wings are
grouped. -/
theorem C94_study (ams ams' : List AirplaneMovement) (om : OperatingPointMovement) (ns nc nch : Option ℕ)
    (dt : Option ℝ) (only : Bool) (p : UnsteadyProblem) (h : study ams om ns nc nch dt only = .ok p) (hc : p.Chordwise)
    (ρ ω : ℕ → ℕ → ℕ) (hre : RegroupedMovements ams ams' ρ ω) (hdt : dt.isSome)
    (hns : ns.isSome ∨ p.maxPeriod ≠ 0) :
    ∃ p', study ams' om ns nc nch dt only = .ok p' ∧
      p'.numSteps = p.numSteps ∧ p'.deltaTime = p.deltaTime ∧ p'.maxPeriod = p.maxPeriod ∧
      p'.firstAveragingStep = p.firstAveragingStep ∧
      ∀ s s₁ z prescribed streamlines streamlines', Reached p s → s.run prescribed streamlines = .ok s₁ → Reached p' z →
        ∃ z₁, z.run prescribed streamlines' = .ok z₁ ∧ ∀ k < p.numSteps, StepRegrouped p p' ρ ω s₁ z₁ k ∧
          (p.firstResultsStep ≤ k → allMoments (z₁.loads k) = allMoments (s₁.loads k) ∧
            ∀ r c, panelAt (p.airplanesAt k) r = some c → ∃ L L', (s₁.panels k r).loads = some L ∧
              (z₁.panels k ⟨ρ r.airplane r.wing, ω r.airplane r.wing, r.row, r.col⟩).loads = some L' ∧
              L'.momentGeometry = L.momentGeometry) := by
  obtain ⟨hmade, -, -, -, hP, -, -, -⟩ := study_parts h
  have h0 := (maxPeriod_parts hP).1
  obtain ⟨p', h', hm', hn, hd, hP', ha', hf, -, H, H', O, O', hH, rfl, hk⟩ :=
    study_varied (ams' := ams') (om' := om) h (by rw [hre.maxPeriod hP, hP])
      (by
        cases dt with
        | some d => rfl
        | none => cases hdt)
      (by
        intro d
        cases ns with
        | some n => rfl
        | none =>
          have hne : p.maxPeriod ≠ 0 := by
            rcases hns with hns | hns
            · cases hns
            · exact hns
          unfold runLength
          simp only [hre.maxPeriod hP, hP, bind, Except.bind]
          rw [if_neg hne, if_neg hne])
      (fun H H' => ∃ (n : ℕ) (d : ℝ), H.length = ams.length ∧ H'.length = ams'.length ∧
        (∀ (a : ℕ) y (k : ℕ) A (m : AirplaneMovement), H[a]? = some y → y[k]? = some A → ams[a]? = some m →
          A.wings.length = m.wingMovements.length ∧
          ∀ (w : ℕ) W V l, A.wings[w]? = some W → m.wingMovements[w]? = some V → V.generate n d = .ok l →
            l[k]? = some W) ∧
        (∀ (a : ℕ) y (k : ℕ) A (m : AirplaneMovement), H'[a]? = some y → y[k]? = some A → ams'[a]? = some m →
          A.wings.length = m.wingMovements.length ∧
          ∀ (w : ℕ) W V l, A.wings[w]? = some W → m.wingMovements[w]? = some V → V.generate n d = .ok l →
            l[k]? = some W) ∧
        (∀ m ∈ ams, ∀ V ∈ m.wingMovements, ∃ l, V.generate n d = .ok l) ∧
        (∀ y ∈ H, ∀ y' ∈ H', ∀ (k : ℕ) A A', y[k]? = some A → y'[k]? = some A' → A'.xyzRef = A.xyzRef))
      (fun O O' => O' = O)
      (by
        intro n d H hH
        obtain ⟨H', h1, h2, h3, -, -, h6, h7, h8, h9⟩ := hre.generate h0 hH
        exact ⟨H', h1, n, d, h2, h3, h6, h7, h8, h9⟩)
      (fun n d O hO => ⟨O, hO, rfl⟩)
  obtain ⟨n, d, l1, l2, w1, w2, hgen, hrefs⟩ := hH
  refine ⟨p', h', hn, hd, hP', ha', ?_⟩
  have hop : ∀ k < p.numSteps, p'.operatingPointAt k = p.operatingPointAt k := by
    intro k hkn
    obtain ⟨-, -, a3, a4⟩ := hk k hkn
    rw [a3, Option.some.injEq] at a4
    exact a4.symm
  -- airplanes of a step and the movements they come from
  have back : ∀ {G : List (List Airplane)} {bms : List AirplaneMovement} {Z : List Airplane} {k : ℕ},
      G.length = bms.length → Forall₂ (fun (history : List Airplane) a => history[k]? = some a) G Z →
      ∀ (a : ℕ) A, Z[a]? = some A → ∃ m y, bms[a]? = some m ∧ G[a]? = some y ∧ y[k]? = some A := by
    intro G bms Z k hl hf a A hA
    have hlt : a < G.length := by rw [hf.length_eq]; exact (List.getElem?_eq_some_iff.mp hA).1
    obtain ⟨B, hB, e⟩ := forall₂_at hf a _ (List.getElem?_eq_getElem hlt)
    rw [hA, Option.some.injEq] at hB
    subst hB
    exact ⟨_, _, List.getElem?_eq_getElem (by rw [← hl]; exact hlt), List.getElem?_eq_getElem hlt, e⟩
  have fore : ∀ {G : List (List Airplane)} {bms : List AirplaneMovement} {Z : List Airplane} {k : ℕ},
      G.length = bms.length → Forall₂ (fun (history : List Airplane) a => history[k]? = some a) G Z →
      ∀ (a : ℕ) m, bms[a]? = some m → ∃ A y, Z[a]? = some A ∧ G[a]? = some y ∧ y[k]? = some A := by
    intro G bms Z k hl hf a m hm
    have hlt : a < G.length := by rw [hl]; exact (List.getElem?_eq_some_iff.mp hm).1
    obtain ⟨B, hB, e⟩ := forall₂_at hf a _ (List.getElem?_eq_getElem hlt)
    exact ⟨B, _, hB, List.getElem?_eq_getElem hlt, e⟩
  have hreg : ∀ k < p.numSteps, Regrouped (p.airplanesAt k) (p'.airplanesAt k) ρ ω := by
    intro k hkn
    obtain ⟨a1, a2, -, -⟩ := hk k hkn
    have wingOf : ∀ {a : ℕ} {A : Airplane} {w : ℕ} {W : Wing}, (p.airplanesAt k)[a]? = some A → A.wings[w]? = some W →
        ∃ (m : AirplaneMovement) (V : WingMovement), ams[a]? = some m ∧ m.wingMovements[w]? = some V := by
      intro a A w W hA hW
      obtain ⟨m, y, hm, hy, hyk⟩ := back l1 a1 a A hA
      have hlt := (List.getElem?_eq_some_iff.mp hW).1
      rw [(w1 a y k A m hy hyk hm).1] at hlt
      exact ⟨m, _, hm, List.getElem?_eq_getElem hlt⟩
    refine ⟨?_, ?_, ?_⟩
    · intro a A w W hA hW
      obtain ⟨m, y, hm, hy, hyk⟩ := back l1 a1 a A hA
      obtain ⟨m₁, V, hm1, hV⟩ := wingOf hA hW
      rw [hm, Option.some.injEq] at hm1
      subst hm1
      obtain ⟨l, hl⟩ := hgen m (List.mem_of_getElem? hm) V (List.mem_of_getElem? hV)
      have hlk := (w1 a y k A m hy hyk hm).2 w W V l hW hV hl
      obtain ⟨m', hm', hV'⟩ := hre.kept a m w V hm hV
      obtain ⟨A', y', hA', hy', hyk'⟩ := fore l2 a2 _ m' hm'
      obtain ⟨c1, c2⟩ := w2 _ y' k A' m' hy' hyk' hm'
      have hlt : ω a w < A'.wings.length := by rw [c1]; exact (List.getElem?_eq_some_iff.mp hV').1
      have hW' := List.getElem?_eq_getElem hlt
      have := c2 _ _ V l hW' hV' hl
      rw [hlk, Option.some.injEq] at this
      exact ⟨A', hA', by rw [this]; exact hW'⟩
    · intro a' A' w' W' hA' hW'
      obtain ⟨m', y', hm', hy', hyk'⟩ := back l2 a2 a' A' hA'
      have hlt := (List.getElem?_eq_some_iff.mp hW').1
      rw [(w2 a' y' k A' m' hy' hyk' hm').1] at hlt
      obtain ⟨a, m, w, V, hm, hV, ea, ew⟩ := hre.all a' m' w' _ hm' (List.getElem?_eq_getElem hlt)
      obtain ⟨A, y, hA, hy, hyk⟩ := fore l1 a1 a m hm
      have hlt' : w < A.wings.length := by
        rw [(w1 a y k A m hy hyk hm).1]; exact (List.getElem?_eq_some_iff.mp hV).1
      exact ⟨a, A, w, _, hA, List.getElem?_eq_getElem hlt', ea, ew⟩
    · intro a A w W b B v V hA hW hB hV e1 e2
      obtain ⟨m, X, hm, hX⟩ := wingOf hA hW
      obtain ⟨n, Y, hn, hY⟩ := wingOf hB hV
      exact hre.once a m w X b n v Y hm hX hn hY e1 e2
  have href : ∀ k < p.numSteps, ∀ A ∈ p.airplanesAt k, ∀ A' ∈ p'.airplanesAt k, A'.xyzRef = A.xyzRef := by
    intro k hkn A hA A' hA'
    obtain ⟨a1, a2, -, -⟩ := hk k hkn
    obtain ⟨i, hi⟩ := List.getElem?_of_mem hA
    obtain ⟨j, hj⟩ := List.getElem?_of_mem hA'
    obtain ⟨-, y, -, hy, hyk⟩ := back l1 a1 i A hi
    obtain ⟨-, y', -, hy', hyk'⟩ := back l2 a2 j A' hj
    exact hrefs y (List.mem_of_getElem? hy) y' (List.mem_of_getElem? hy') k A A' hyk hyk'
  intro s s₁ z pres sl sl' hr hrun hz
  obtain ⟨z₁, hrun', hstep⟩ := C94_unsteady p p' hmade hm' hc hn hd hf hop ρ ω hreg s s₁ z pres sl sl' hr hrun hz
  refine ⟨z₁, hrun', fun k hkn => ⟨hstep k hkn, fun hfr => ⟨?_, ?_⟩⟩⟩
  · exact ((hstep k hkn).totals hfr).2.2.2.2 (href k hkn)
  · intro r c hc
    obtain ⟨L, L', e1, e2, -, -, e3⟩ := ((hstep k hkn).panels r c hc).2.2 hfr
    obtain ⟨A, W, hA, hW, -⟩ := panelAt_cell hc
    obtain ⟨A', hA', -⟩ := (hreg k hkn).kept _ A _ W hA hW
    refine ⟨L, L', e1, e2, ?_⟩
    rw [e3 A A' hA hA', href k hkn A (List.mem_of_getElem? hA) A' (List.mem_of_getElem? hA'), sub_self]
    ext <;> simp [V3.cross]

/-- The hypotheses are met: two heaving plates side by side, as two airplanes and as one airplane with two wings, for any
amplitude, period, number and length of steps, in a flow along the chord. -/
example (A P : ℝ) (n : ℕ) (hn : 0 < n) (dt density velocity : ℝ) (hdt : 0 < dt) (hv : 0 < velocity)
    (only pres sl : Bool) :
    ∃ am bm cm om p p' s s₁ z z₁, study [am, bm] om (some n) none none (some dt) only = .ok p ∧ p.Chordwise ∧
      p.numSteps = n ∧ cm.wingMovements = am.wingMovements ++ bm.wingMovements ∧
      RegroupedMovements [am, bm] [cm] (fun _ _ => 0) (fun a w => a + w) ∧ Reached p s ∧ s.run pres sl = .ok s₁ ∧
      study [cm] om (some n) none none (some dt) only = .ok p' ∧ Reached p' z ∧ z.run pres sl = .ok z₁ ∧
      ∀ k < n, (∀ q, flow z₁ k q = flow s₁ k q) ∧ (∀ i < k, (⟨0, 0, i, 0⟩ : WakePlace) ∈ wakePlaces p k) := by
  obtain ⟨m, hm0, hm⟩ := PlatePair.movement_at A P
  obtain ⟨-, p, hp, hmade, hsteps, hd, hper, hst⟩ :=
    hm (-1) 0 n hn dt { density, velocity, alpha := 0, beta := 0 } only
  obtain ⟨W, hW, r1, r2, r3, r4⟩ := hm0 (-1)
  obtain ⟨V, hV, t1, t2, t3, t4⟩ := hm0 0
  generalize m (-1) = am at *
  generalize m 0 = bm at *
  have fresh : ∀ {p : UnsteadyProblem}, p.Made → p.numSteps = n → ∃ s, Reached p s := by
    intro p hmade hsteps
    have hlen := hmade.regular.steps
    rw [hsteps] at hlen
    have : ∃ s, UnsteadySolver.create p = .ok s := by
      unfold UnsteadySolver.create
      cases hsp : p.steadyProblems with
      | nil => rw [hsp] at hlen; simp at hlen; omega
      | cons a l => exact ⟨_, rfl⟩
    obtain ⟨s, hs⟩ := this
    exact ⟨s, .fresh hs⟩
  have hlen := hmade.regular.steps
  rw [hsteps] at hlen
  obtain ⟨s, hr⟩ := fresh hmade hsteps
  obtain ⟨s₁, hrun⟩ := SymmetricPlate.run_of_strips (z := fun k => (oscillatingSinspace A P 0 n dt).getD k 0)
    (op := { density, velocity, alpha := 0, beta := 0 }) hmade hd hdt.le hv.le rfl rfl (by
      intro k hk
      rw [hsteps] at hk
      obtain ⟨ho, a, b, u, v, C, D, c1, c2, c3, c4, c5, -, -, -, c8, c9⟩ := hst k hk
      rw [neg_add_cancel] at c8
      rw [_root_.zero_add] at c9
      refine ⟨ho, ⟨0, 0, 0, 0⟩, ⟨1, 0, 0, 0⟩, C, D, ?_, ?_, ?_, c8, c9⟩
      · simp [panelRefs, airplaneRefs, c1, c2, c3, c4, c5, List.zipIdx]
      · simp [panelAt, wingAt, c1, c2, c4]
      · simp [panelAt, wingAt, c1, c3, c5]) hr pres sl
  have hc : p.Chordwise := by
    intro w wing hw
    by_cases hk : w.step < n
    · obtain ⟨-, a, b, u, v, C, D, c1, c2, c3, c4, c5, c6, c7, -⟩ := hst _ hk
      unfold UnsteadyProblem.wing? at hw
      rw [c1, Option.bind_eq_some_iff] at hw
      obtain ⟨x, hx, hw⟩ := hw
      have hx' := List.mem_of_getElem? hx
      simp only [List.mem_cons, List.not_mem_nil, or_false] at hx'
      rcases hx' with rfl | rfl
      · rw [c2] at hw
        have := List.mem_of_getElem? hw
        simp only [List.mem_singleton] at this
        subst this
        omega
      · rw [c3] at hw
        have := List.mem_of_getElem? hw
        simp only [List.mem_singleton] at this
        subst this
        omega
    · have hnone : p.steadyProblems[w.step]? = none := by
        rw [List.getElem?_eq_none_iff, hlen]; omega
      simp [UnsteadyProblem.wing?, UnsteadyProblem.airplanesAt, hnone] at hw
  have hre : RegroupedMovements [am, bm] [{ am with wingMovements := [W, V] }] (fun _ _ => 0) (fun a w => a + w) := by
    have wing : ∀ (a : ℕ) (x : AirplaneMovement) (w : ℕ) X, [am, bm][a]? = some x → x.wingMovements[w]? = some X →
        (a = 0 ∧ x = am ∧ w = 0 ∧ X = W) ∨ (a = 1 ∧ x = bm ∧ w = 0 ∧ X = V) := by
      intro a x w X hx hX
      match a, hx with
      | 0, hx =>
        cases hx
        rw [hW] at hX
        match w, hX with
        | 0, hX => cases hX; exact .inl ⟨rfl, rfl, rfl, rfl⟩
      | 1, hx =>
        cases hx
        rw [hV] at hX
        match w, hX with
        | 0, hX => cases hX; exact .inr ⟨rfl, rfl, rfl, rfl⟩
    refine ⟨?_, ?_, ?_, by simp, ?_⟩
    · intro a x w X hx hX
      rcases wing a x w X hx hX with ⟨rfl, -, rfl, rfl⟩ | ⟨rfl, -, rfl, rfl⟩ <;> exact ⟨_, rfl, rfl⟩
    · intro a x w X hx hX
      match a, hx with
      | 0, hx =>
        cases hx
        match w, hX with
        | 0, hX => cases hX; exact ⟨0, am, 0, W, rfl, by rw [hW]; rfl, rfl, rfl⟩
        | 1, hX => cases hX; exact ⟨1, bm, 0, V, rfl, by rw [hV]; rfl, rfl, rfl⟩
    · intro a x w X b y v Y hx hX hy hY _ e
      rcases wing a x w X hx hX with ⟨rfl, -, rfl, -⟩ | ⟨rfl, -, rfl, -⟩ <;>
        rcases wing b y v Y hy hY with ⟨rfl, -, rfl, -⟩ | ⟨rfl, -, rfl, -⟩ <;> simp at e ⊢
    · intro x hx x' hx'
      simp only [List.mem_cons, List.not_mem_nil, or_false] at hx hx'
      subst hx'
      rcases hx with rfl | rfl
      · exact ⟨rfl, rfl, rfl, rfl⟩
      · exact ⟨r1.trans t1.symm, r2.trans t2.symm, r3.trans t3.symm, r4.trans t4.symm⟩
  obtain ⟨p', hp', hsteps', -, -, -, hall⟩ := C94_study _ _ _ _ _ _ _ _ _ hp hc _ _ hre rfl (.inl rfl)
  obtain ⟨z, hz⟩ := fresh (study_parts hp').1 (hsteps'.trans hsteps)
  obtain ⟨z₁, hz1, hshow⟩ := hall s s₁ z pres sl sl hr hrun hz
  refine ⟨am, bm, _, _, p, p', s, s₁, z, z₁, hp, hc, hsteps, by rw [hW, hV]; rfl, hre, hr, hrun, hp', hz, hz1, ?_⟩
  intro k hk
  refine ⟨(hshow k (by omega)).1.flow, ?_⟩
  intro i hi
  obtain ⟨-, a, b, u, v, C, D, c1, c2, c3, c4, c5, c6, c7, c8, -⟩ := hst k hk
  simp [wakePlaces, c1, c2, c8, List.zipIdx, hi]

end Ptera
